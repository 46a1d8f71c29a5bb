import Verif.Whole.SignDefs

/-!
# Signs of the observation equations (generated by tools/gen_sign.py)
-/

set_option linter.unusedSimpArgs false
set_option linter.unusedVariables false

namespace Ecl.Whole.Cover

open Ecl.Cov Ecl.Fusion

variable (P Pr : Mat ℝ) (s : Vec ℝ) (R a b : ℝ) (all : Bool)

theorem MagX_HKX0 : MagX.HKX0 (sgM Spec.covSign P) (sgV Spec.covSign s) R a b = -MagX.HKX0 P s R a b := by
  simp only [MagX.HKX0, cov_0, cov_2, cov_3, cov_16, cov_17, cov_18, sgV, sgM]
  try ring
theorem MagX_HKX1 : MagX.HKX1 (sgM Spec.covSign P) (sgV Spec.covSign s) R a b = -MagX.HKX1 P s R a b := by
  simp only [MagX.HKX1, cov_1, cov_2, cov_3, cov_16, cov_17, cov_18, sgV, sgM]
  try ring
theorem MagX_HKX2 : MagX.HKX2 (sgM Spec.covSign P) (sgV Spec.covSign s) R a b = -MagX.HKX2 P s R a b := by
  simp only [MagX.HKX2, cov_1, cov_17, sgV, sgM]
  try ring
theorem MagX_HKX3 : MagX.HKX3 (sgM Spec.covSign P) (sgV Spec.covSign s) R a b = -MagX.HKX3 P s R a b := by
  simp only [MagX.HKX3, cov_0, cov_18, sgV, sgM]
  try ring
theorem MagX_HKX4 : MagX.HKX4 (sgM Spec.covSign P) (sgV Spec.covSign s) R a b = -MagX.HKX4 P s R a b := by
  simp only [MagX.HKX4, cov_2, cov_16, sgV, sgM]
  try ring
theorem MagX_HKX5 : MagX.HKX5 (sgM Spec.covSign P) (sgV Spec.covSign s) R a b = -MagX.HKX5 P s R a b := by
  simp only [MagX.HKX5, cov_0, cov_1, cov_3, cov_16, cov_17, cov_18, sgV, sgM]
  try ring
theorem MagX_HKX6 : MagX.HKX6 (sgM Spec.covSign P) (sgV Spec.covSign s) R a b = MagX.HKX6 P s R a b := by
  simp only [MagX.HKX6, cov_0, cov_1, cov_2, cov_3, sgV, sgM]
  try ring
theorem MagX_HKX7 : MagX.HKX7 (sgM Spec.covSign P) (sgV Spec.covSign s) R a b = MagX.HKX7 P s R a b := by
  simp only [MagX.HKX7, cov_0, cov_1, cov_2, cov_3, sgV, sgM]
  try ring
theorem MagX_HKX8 : MagX.HKX8 (sgM Spec.covSign P) (sgV Spec.covSign s) R a b = MagX.HKX8 P s R a b := by
  simp only [MagX.HKX8, cov_1, cov_3, sgV, sgM]
  try ring
theorem MagX_HKX9 : MagX.HKX9 (sgM Spec.covSign P) (sgV Spec.covSign s) R a b = MagX.HKX9 P s R a b := by
  simp only [MagX.HKX9, cov_0, cov_2, sgV, sgM]
  try ring
theorem MagX_HKX10 : MagX.HKX10 (sgM Spec.covSign P) (sgV Spec.covSign s) R a b = MagX.HKX10 P s R a b := by
  simp only [MagX.HKX10, MagX_HKX7, sgV, sgM]
  try ring
theorem MagX_HKX11 : MagX.HKX11 (sgM Spec.covSign P) (sgV Spec.covSign s) R a b = MagX.HKX11 P s R a b := by
  simp only [MagX.HKX11, MagX_HKX8, MagX_HKX9, sgV, sgM]
  try ring
theorem MagX_HKX12 : MagX.HKX12 (sgM Spec.covSign P) (sgV Spec.covSign s) R a b = -MagX.HKX12 P s R a b := by
  simp only [MagX.HKX12, MagX_HKX1, sgV, sgM]
  try ring
theorem MagX_HKX13 : MagX.HKX13 (sgM Spec.covSign P) (sgV Spec.covSign s) R a b = -MagX.HKX13 P s R a b := by
  simp only [MagX.HKX13, MagX_HKX0, sgV, sgM]
  try ring
theorem MagX_HKX14 : MagX.HKX14 (sgM Spec.covSign P) (sgV Spec.covSign s) R a b = -MagX.HKX14 P s R a b := by
  simp only [MagX.HKX14, MagX_HKX2, MagX_HKX3, MagX_HKX4, sgV, sgM]
  try ring
theorem MagX_HKX15 : MagX.HKX15 (sgM Spec.covSign P) (sgV Spec.covSign s) R a b = -MagX.HKX15 P s R a b := by
  simp only [MagX.HKX15, MagX_HKX5, sgV, sgM]
  try ring
theorem MagX_HKX16 : MagX.HKX16 (sgM Spec.covSign P) (sgV Spec.covSign s) R a b = -MagX.HKX16 P s R a b := by
  simp only [MagX.HKX16, MagX_HKX6, MagX_HKX10, MagX_HKX11, MagX_HKX12, MagX_HKX13, MagX_HKX14, MagX_HKX15, cov_0, cov_1, cov_2, cov_3, cov_16, cov_17, cov_18, cov_19, sgV, sgM]
  try ring
theorem MagX_HKX17 : MagX.HKX17 (sgM Spec.covSign P) (sgV Spec.covSign s) R a b = MagX.HKX17 P s R a b := by
  simp only [MagX.HKX17, MagX_HKX6, MagX_HKX10, MagX_HKX11, MagX_HKX12, MagX_HKX13, MagX_HKX14, MagX_HKX15, cov_0, cov_1, cov_2, cov_3, cov_16, cov_17, cov_18, cov_19, sgV, sgM]
  try ring
theorem MagX_HKX18 : MagX.HKX18 (sgM Spec.covSign P) (sgV Spec.covSign s) R a b = MagX.HKX18 P s R a b := by
  simp only [MagX.HKX18, MagX_HKX6, MagX_HKX10, MagX_HKX11, MagX_HKX12, MagX_HKX13, MagX_HKX14, MagX_HKX15, cov_0, cov_1, cov_2, cov_3, cov_16, cov_17, cov_18, cov_19, sgV, sgM]
  try ring
theorem MagX_HKX19 : MagX.HKX19 (sgM Spec.covSign P) (sgV Spec.covSign s) R a b = -MagX.HKX19 P s R a b := by
  simp only [MagX.HKX19, MagX_HKX6, MagX_HKX10, MagX_HKX11, MagX_HKX12, MagX_HKX13, MagX_HKX14, MagX_HKX15, cov_0, cov_1, cov_2, cov_3, cov_16, cov_17, cov_18, cov_19, sgV, sgM]
  try ring
theorem MagX_HKX20 : MagX.HKX20 (sgM Spec.covSign P) (sgV Spec.covSign s) R a b = MagX.HKX20 P s R a b := by
  simp only [MagX.HKX20, MagX_HKX6, MagX_HKX10, MagX_HKX11, MagX_HKX12, MagX_HKX13, MagX_HKX14, MagX_HKX15, cov_0, cov_1, cov_2, cov_3, cov_16, cov_17, cov_18, cov_19, sgV, sgM]
  try ring
theorem MagX_HKX21 : MagX.HKX21 (sgM Spec.covSign P) (sgV Spec.covSign s) R a b = -MagX.HKX21 P s R a b := by
  simp only [MagX.HKX21, MagX_HKX6, MagX_HKX10, MagX_HKX11, MagX_HKX12, MagX_HKX13, MagX_HKX14, MagX_HKX15, cov_0, cov_1, cov_2, cov_3, cov_16, cov_17, cov_18, cov_19, sgV, sgM]
  try ring
theorem MagX_HKX22 : MagX.HKX22 (sgM Spec.covSign P) (sgV Spec.covSign s) R a b = -MagX.HKX22 P s R a b := by
  simp only [MagX.HKX22, MagX_HKX6, MagX_HKX10, MagX_HKX11, MagX_HKX12, MagX_HKX13, MagX_HKX14, MagX_HKX15, cov_0, cov_1, cov_2, cov_3, cov_16, cov_17, cov_18, cov_19, sgV, sgM]
  try ring
theorem MagX_HKX23 : MagX.HKX23 (sgM Spec.covSign P) (sgV Spec.covSign s) R a b = MagX.HKX23 P s R a b := by
  simp only [MagX.HKX23, MagX_HKX6, MagX_HKX10, MagX_HKX11, MagX_HKX12, MagX_HKX13, MagX_HKX14, MagX_HKX15, cov_0, cov_1, cov_2, cov_3, cov_16, cov_17, cov_18, cov_19, sgV, sgM]
  try ring
theorem MagX_S : MagX.S (sgM Spec.covSign P) (sgV Spec.covSign s) R a b = MagX.S P s R a b := by
  simp only [MagX.S, MagX_HKX6, MagX_HKX10, MagX_HKX11, MagX_HKX12, MagX_HKX13, MagX_HKX14, MagX_HKX15, MagX_HKX16, MagX_HKX17, MagX_HKX18, MagX_HKX19, MagX_HKX20, MagX_HKX21, MagX_HKX22, MagX_HKX23, sgV, sgM]
  try ring
theorem MagX_HKX24 : MagX.HKX24 (sgM Spec.covSign P) (sgV Spec.covSign s) R a b = MagX.HKX24 P s R a b := by
  simp only [MagX.HKX24, MagX_S, sgV, sgM]
  try ring
theorem MagX_hList : MagX.hList (sgM Spec.covSign P) (sgV Spec.covSign s) R a b = (MagX.hList P s R a b).map fun p => (p.1, (1 : ℝ) * (Spec.covSign p.1 * p.2)) := by
  simp only [MagX.hList, List.map_cons, List.map_nil, MagX_HKX0, MagX_HKX1, MagX_HKX2, MagX_HKX3, MagX_HKX4, MagX_HKX5, MagX_HKX6, MagX_HKX7, MagX_HKX8, MagX_HKX9, cov_0, cov_1, cov_2, cov_3, cov_16, cov_17, cov_18, cov_19, sgV, sgM, List.cons.injEq, Prod.mk.injEq, true_and, and_true]
  refine ⟨by ring, by ring, by ring, by ring, by ring, by ring, by ring, by ring⟩
theorem MagX_gain : MagX.gain all (sgM Spec.covSign P) (sgV Spec.covSign s) R a b = fun i => (1 : ℝ) * (Spec.covSign i * MagX.gain all P s R a b i) := by
  funext i
  unfold MagX.gain
  by_cases c : all = true ∧ i.val = 0
  · rw [if_pos c, if_pos c]
    rw [show Spec.covSign i = Spec.covSign 0 from congrArg _ (Fin.ext (by first | exact c | exact c.2))]
    simp only [MagX_HKX16, MagX_HKX24, cov_0, sgV, sgM]
    ring
  rw [if_neg c, if_neg c]
  clear c
  by_cases c : all = true ∧ i.val = 1
  · rw [if_pos c, if_pos c]
    rw [show Spec.covSign i = Spec.covSign 1 from congrArg _ (Fin.ext (by first | exact c | exact c.2))]
    simp only [MagX_HKX22, MagX_HKX24, cov_1, sgV, sgM]
    ring
  rw [if_neg c, if_neg c]
  clear c
  by_cases c : all = true ∧ i.val = 2
  · rw [if_pos c, if_pos c]
    rw [show Spec.covSign i = Spec.covSign 2 from congrArg _ (Fin.ext (by first | exact c | exact c.2))]
    simp only [MagX_HKX19, MagX_HKX24, cov_2, sgV, sgM]
    ring
  rw [if_neg c, if_neg c]
  clear c
  by_cases c : all = true ∧ i.val = 3
  · rw [if_pos c, if_pos c]
    rw [show Spec.covSign i = Spec.covSign 3 from congrArg _ (Fin.ext (by first | exact c | exact c.2))]
    simp only [MagX_HKX21, MagX_HKX24, cov_3, sgV, sgM]
    ring
  rw [if_neg c, if_neg c]
  clear c
  by_cases c : all = true ∧ 4 ≤ i.val ∧ i.val ≤ 15
  · rw [if_pos c, if_pos c]
    simp only [MagX_HKX6, MagX_HKX10, MagX_HKX11, MagX_HKX12, MagX_HKX13, MagX_HKX14, MagX_HKX15, MagX_HKX24, cov_0, cov_1, cov_2, cov_3, cov_16, cov_17, cov_18, cov_19, sgV, sgM]
    ring
  rw [if_neg c, if_neg c]
  clear c
  by_cases c : all = true ∧ 22 ≤ i.val ∧ i.val ≤ 23
  · rw [if_pos c, if_pos c]
    simp only [MagX_HKX6, MagX_HKX10, MagX_HKX11, MagX_HKX12, MagX_HKX13, MagX_HKX14, MagX_HKX15, MagX_HKX24, cov_0, cov_1, cov_2, cov_3, cov_16, cov_17, cov_18, cov_19, sgV, sgM]
    ring
  rw [if_neg c, if_neg c]
  clear c
  by_cases c : i.val = 16
  · rw [if_pos c, if_pos c]
    rw [show Spec.covSign i = Spec.covSign 16 from congrArg _ (Fin.ext (by first | exact c | exact c.2))]
    simp only [MagX_HKX17, MagX_HKX24, cov_16, sgV, sgM]
    ring
  rw [if_neg c, if_neg c]
  clear c
  by_cases c : i.val = 17
  · rw [if_pos c, if_pos c]
    rw [show Spec.covSign i = Spec.covSign 17 from congrArg _ (Fin.ext (by first | exact c | exact c.2))]
    simp only [MagX_HKX20, MagX_HKX24, cov_17, sgV, sgM]
    ring
  rw [if_neg c, if_neg c]
  clear c
  by_cases c : i.val = 18
  · rw [if_pos c, if_pos c]
    rw [show Spec.covSign i = Spec.covSign 18 from congrArg _ (Fin.ext (by first | exact c | exact c.2))]
    simp only [MagX_HKX18, MagX_HKX24, cov_18, sgV, sgM]
    ring
  rw [if_neg c, if_neg c]
  clear c
  by_cases c : i.val = 19
  · rw [if_pos c, if_pos c]
    rw [show Spec.covSign i = Spec.covSign 19 from congrArg _ (Fin.ext (by first | exact c | exact c.2))]
    simp only [MagX_HKX23, MagX_HKX24, cov_19, sgV, sgM]
    ring
  rw [if_neg c, if_neg c]
  clear c
  by_cases c : 20 ≤ i.val ∧ i.val ≤ 21
  · rw [if_pos c, if_pos c]
    simp only [MagX_HKX6, MagX_HKX10, MagX_HKX11, MagX_HKX12, MagX_HKX13, MagX_HKX14, MagX_HKX15, MagX_HKX24, cov_0, cov_1, cov_2, cov_3, cov_16, cov_17, cov_18, cov_19, sgV, sgM]
    ring
  rw [if_neg c, if_neg c]
  clear c
  ring
theorem MagY_HKY0 : MagY.HKY0 (sgM Spec.covSign P) (sgV Spec.covSign s) R a b = -MagY.HKY0 P s R a b := by
  simp only [MagY.HKY0, cov_0, cov_1, cov_3, cov_16, cov_17, cov_18, sgV, sgM]
  try ring
theorem MagY_HKY1 : MagY.HKY1 (sgM Spec.covSign P) (sgV Spec.covSign s) R a b = -MagY.HKY1 P s R a b := by
  simp only [MagY.HKY1, cov_0, cov_1, cov_2, cov_16, cov_17, cov_18, sgV, sgM]
  try ring
theorem MagY_HKY2 : MagY.HKY2 (sgM Spec.covSign P) (sgV Spec.covSign s) R a b = -MagY.HKY2 P s R a b := by
  simp only [MagY.HKY2, cov_1, cov_2, cov_3, cov_16, cov_17, cov_18, sgV, sgM]
  try ring
theorem MagY_HKY3 : MagY.HKY3 (sgM Spec.covSign P) (sgV Spec.covSign s) R a b = -MagY.HKY3 P s R a b := by
  simp only [MagY.HKY3, cov_2, cov_18, sgV, sgM]
  try ring
theorem MagY_HKY4 : MagY.HKY4 (sgM Spec.covSign P) (sgV Spec.covSign s) R a b = -MagY.HKY4 P s R a b := by
  simp only [MagY.HKY4, cov_3, cov_17, sgV, sgM]
  try ring
theorem MagY_HKY5 : MagY.HKY5 (sgM Spec.covSign P) (sgV Spec.covSign s) R a b = -MagY.HKY5 P s R a b := by
  simp only [MagY.HKY5, cov_0, cov_16, sgV, sgM]
  try ring
theorem MagY_HKY6 : MagY.HKY6 (sgM Spec.covSign P) (sgV Spec.covSign s) R a b = MagY.HKY6 P s R a b := by
  simp only [MagY.HKY6, cov_1, cov_2, sgV, sgM]
  try ring
theorem MagY_HKY7 : MagY.HKY7 (sgM Spec.covSign P) (sgV Spec.covSign s) R a b = MagY.HKY7 P s R a b := by
  simp only [MagY.HKY7, cov_0, cov_3, sgV, sgM]
  try ring
theorem MagY_HKY8 : MagY.HKY8 (sgM Spec.covSign P) (sgV Spec.covSign s) R a b = MagY.HKY8 P s R a b := by
  simp only [MagY.HKY8, cov_0, cov_1, cov_2, cov_3, sgV, sgM]
  try ring
theorem MagY_HKY9 : MagY.HKY9 (sgM Spec.covSign P) (sgV Spec.covSign s) R a b = MagY.HKY9 P s R a b := by
  simp only [MagY.HKY9, cov_0, cov_1, cov_2, cov_3, sgV, sgM]
  try ring
theorem MagY_HKY10 : MagY.HKY10 (sgM Spec.covSign P) (sgV Spec.covSign s) R a b = MagY.HKY10 P s R a b := by
  simp only [MagY.HKY10, MagY_HKY9, sgV, sgM]
  try ring
theorem MagY_HKY11 : MagY.HKY11 (sgM Spec.covSign P) (sgV Spec.covSign s) R a b = MagY.HKY11 P s R a b := by
  simp only [MagY.HKY11, MagY_HKY6, MagY_HKY7, sgV, sgM]
  try ring
theorem MagY_HKY12 : MagY.HKY12 (sgM Spec.covSign P) (sgV Spec.covSign s) R a b = -MagY.HKY12 P s R a b := by
  simp only [MagY.HKY12, MagY_HKY2, sgV, sgM]
  try ring
theorem MagY_HKY13 : MagY.HKY13 (sgM Spec.covSign P) (sgV Spec.covSign s) R a b = -MagY.HKY13 P s R a b := by
  simp only [MagY.HKY13, MagY_HKY0, sgV, sgM]
  try ring
theorem MagY_HKY14 : MagY.HKY14 (sgM Spec.covSign P) (sgV Spec.covSign s) R a b = -MagY.HKY14 P s R a b := by
  simp only [MagY.HKY14, MagY_HKY1, sgV, sgM]
  try ring
theorem MagY_HKY15 : MagY.HKY15 (sgM Spec.covSign P) (sgV Spec.covSign s) R a b = -MagY.HKY15 P s R a b := by
  simp only [MagY.HKY15, MagY_HKY3, MagY_HKY4, MagY_HKY5, sgV, sgM]
  try ring
theorem MagY_HKY16 : MagY.HKY16 (sgM Spec.covSign P) (sgV Spec.covSign s) R a b = -MagY.HKY16 P s R a b := by
  simp only [MagY.HKY16, MagY_HKY8, MagY_HKY10, MagY_HKY11, MagY_HKY12, MagY_HKY13, MagY_HKY14, MagY_HKY15, cov_0, cov_1, cov_2, cov_3, cov_16, cov_17, cov_18, cov_20, sgV, sgM]
  try ring
theorem MagY_HKY17 : MagY.HKY17 (sgM Spec.covSign P) (sgV Spec.covSign s) R a b = MagY.HKY17 P s R a b := by
  simp only [MagY.HKY17, MagY_HKY8, MagY_HKY10, MagY_HKY11, MagY_HKY12, MagY_HKY13, MagY_HKY14, MagY_HKY15, cov_0, cov_1, cov_2, cov_3, cov_16, cov_17, cov_18, cov_20, sgV, sgM]
  try ring
theorem MagY_HKY18 : MagY.HKY18 (sgM Spec.covSign P) (sgV Spec.covSign s) R a b = MagY.HKY18 P s R a b := by
  simp only [MagY.HKY18, MagY_HKY8, MagY_HKY10, MagY_HKY11, MagY_HKY12, MagY_HKY13, MagY_HKY14, MagY_HKY15, cov_0, cov_1, cov_2, cov_3, cov_16, cov_17, cov_18, cov_20, sgV, sgM]
  try ring
theorem MagY_HKY19 : MagY.HKY19 (sgM Spec.covSign P) (sgV Spec.covSign s) R a b = -MagY.HKY19 P s R a b := by
  simp only [MagY.HKY19, MagY_HKY8, MagY_HKY10, MagY_HKY11, MagY_HKY12, MagY_HKY13, MagY_HKY14, MagY_HKY15, cov_0, cov_1, cov_2, cov_3, cov_16, cov_17, cov_18, cov_20, sgV, sgM]
  try ring
theorem MagY_HKY20 : MagY.HKY20 (sgM Spec.covSign P) (sgV Spec.covSign s) R a b = MagY.HKY20 P s R a b := by
  simp only [MagY.HKY20, MagY_HKY8, MagY_HKY10, MagY_HKY11, MagY_HKY12, MagY_HKY13, MagY_HKY14, MagY_HKY15, cov_0, cov_1, cov_2, cov_3, cov_16, cov_17, cov_18, cov_20, sgV, sgM]
  try ring
theorem MagY_HKY21 : MagY.HKY21 (sgM Spec.covSign P) (sgV Spec.covSign s) R a b = -MagY.HKY21 P s R a b := by
  simp only [MagY.HKY21, MagY_HKY8, MagY_HKY10, MagY_HKY11, MagY_HKY12, MagY_HKY13, MagY_HKY14, MagY_HKY15, cov_0, cov_1, cov_2, cov_3, cov_16, cov_17, cov_18, cov_20, sgV, sgM]
  try ring
theorem MagY_HKY22 : MagY.HKY22 (sgM Spec.covSign P) (sgV Spec.covSign s) R a b = -MagY.HKY22 P s R a b := by
  simp only [MagY.HKY22, MagY_HKY8, MagY_HKY10, MagY_HKY11, MagY_HKY12, MagY_HKY13, MagY_HKY14, MagY_HKY15, cov_0, cov_1, cov_2, cov_3, cov_16, cov_17, cov_18, cov_20, sgV, sgM]
  try ring
theorem MagY_HKY23 : MagY.HKY23 (sgM Spec.covSign P) (sgV Spec.covSign s) R a b = MagY.HKY23 P s R a b := by
  simp only [MagY.HKY23, MagY_HKY8, MagY_HKY10, MagY_HKY11, MagY_HKY12, MagY_HKY13, MagY_HKY14, MagY_HKY15, cov_0, cov_1, cov_2, cov_3, cov_16, cov_17, cov_18, cov_20, sgV, sgM]
  try ring
theorem MagY_S : MagY.S (sgM Spec.covSign P) (sgV Spec.covSign s) R a b = MagY.S P s R a b := by
  simp only [MagY.S, MagY_HKY8, MagY_HKY10, MagY_HKY11, MagY_HKY12, MagY_HKY13, MagY_HKY14, MagY_HKY15, MagY_HKY16, MagY_HKY17, MagY_HKY18, MagY_HKY19, MagY_HKY20, MagY_HKY21, MagY_HKY22, MagY_HKY23, sgV, sgM]
  try ring
theorem MagY_HKY24 : MagY.HKY24 (sgM Spec.covSign P) (sgV Spec.covSign s) R a b = MagY.HKY24 P s R a b := by
  simp only [MagY.HKY24, MagY_S, sgV, sgM]
  try ring
theorem MagY_hList : MagY.hList (sgM Spec.covSign P) (sgV Spec.covSign s) R a b = (MagY.hList P s R a b).map fun p => (p.1, (1 : ℝ) * (Spec.covSign p.1 * p.2)) := by
  simp only [MagY.hList, List.map_cons, List.map_nil, MagY_HKY0, MagY_HKY1, MagY_HKY2, MagY_HKY3, MagY_HKY4, MagY_HKY5, MagY_HKY6, MagY_HKY7, MagY_HKY8, MagY_HKY9, cov_0, cov_1, cov_2, cov_3, cov_16, cov_17, cov_18, cov_20, sgV, sgM, List.cons.injEq, Prod.mk.injEq, true_and, and_true]
  refine ⟨by ring, by ring, by ring, by ring, by ring, by ring, by ring, by ring⟩
theorem MagY_gain : MagY.gain all (sgM Spec.covSign P) (sgV Spec.covSign s) R a b = fun i => (1 : ℝ) * (Spec.covSign i * MagY.gain all P s R a b i) := by
  funext i
  unfold MagY.gain
  by_cases c : all = true ∧ i.val = 0
  · rw [if_pos c, if_pos c]
    rw [show Spec.covSign i = Spec.covSign 0 from congrArg _ (Fin.ext (by first | exact c | exact c.2))]
    simp only [MagY_HKY16, MagY_HKY24, cov_0, sgV, sgM]
    ring
  rw [if_neg c, if_neg c]
  clear c
  by_cases c : all = true ∧ i.val = 1
  · rw [if_pos c, if_pos c]
    rw [show Spec.covSign i = Spec.covSign 1 from congrArg _ (Fin.ext (by first | exact c | exact c.2))]
    simp only [MagY_HKY21, MagY_HKY24, cov_1, sgV, sgM]
    ring
  rw [if_neg c, if_neg c]
  clear c
  by_cases c : all = true ∧ i.val = 2
  · rw [if_pos c, if_pos c]
    rw [show Spec.covSign i = Spec.covSign 2 from congrArg _ (Fin.ext (by first | exact c | exact c.2))]
    simp only [MagY_HKY22, MagY_HKY24, cov_2, sgV, sgM]
    ring
  rw [if_neg c, if_neg c]
  clear c
  by_cases c : all = true ∧ i.val = 3
  · rw [if_pos c, if_pos c]
    rw [show Spec.covSign i = Spec.covSign 3 from congrArg _ (Fin.ext (by first | exact c | exact c.2))]
    simp only [MagY_HKY19, MagY_HKY24, cov_3, sgV, sgM]
    ring
  rw [if_neg c, if_neg c]
  clear c
  by_cases c : all = true ∧ 4 ≤ i.val ∧ i.val ≤ 15
  · rw [if_pos c, if_pos c]
    simp only [MagY_HKY8, MagY_HKY10, MagY_HKY11, MagY_HKY12, MagY_HKY13, MagY_HKY14, MagY_HKY15, MagY_HKY24, cov_0, cov_1, cov_2, cov_3, cov_16, cov_17, cov_18, cov_20, sgV, sgM]
    ring
  rw [if_neg c, if_neg c]
  clear c
  by_cases c : all = true ∧ 22 ≤ i.val ∧ i.val ≤ 23
  · rw [if_pos c, if_pos c]
    simp only [MagY_HKY8, MagY_HKY10, MagY_HKY11, MagY_HKY12, MagY_HKY13, MagY_HKY14, MagY_HKY15, MagY_HKY24, cov_0, cov_1, cov_2, cov_3, cov_16, cov_17, cov_18, cov_20, sgV, sgM]
    ring
  rw [if_neg c, if_neg c]
  clear c
  by_cases c : i.val = 16
  · rw [if_pos c, if_pos c]
    rw [show Spec.covSign i = Spec.covSign 16 from congrArg _ (Fin.ext (by first | exact c | exact c.2))]
    simp only [MagY_HKY18, MagY_HKY24, cov_16, sgV, sgM]
    ring
  rw [if_neg c, if_neg c]
  clear c
  by_cases c : i.val = 17
  · rw [if_pos c, if_pos c]
    rw [show Spec.covSign i = Spec.covSign 17 from congrArg _ (Fin.ext (by first | exact c | exact c.2))]
    simp only [MagY_HKY17, MagY_HKY24, cov_17, sgV, sgM]
    ring
  rw [if_neg c, if_neg c]
  clear c
  by_cases c : i.val = 18
  · rw [if_pos c, if_pos c]
    rw [show Spec.covSign i = Spec.covSign 18 from congrArg _ (Fin.ext (by first | exact c | exact c.2))]
    simp only [MagY_HKY20, MagY_HKY24, cov_18, sgV, sgM]
    ring
  rw [if_neg c, if_neg c]
  clear c
  by_cases c : i.val = 19
  · rw [if_pos c, if_pos c]
    rw [show Spec.covSign i = Spec.covSign 19 from congrArg _ (Fin.ext (by first | exact c | exact c.2))]
    simp only [MagY_HKY8, MagY_HKY10, MagY_HKY11, MagY_HKY12, MagY_HKY13, MagY_HKY14, MagY_HKY15, MagY_HKY24, cov_0, cov_1, cov_2, cov_3, cov_16, cov_17, cov_18, cov_19, cov_20, sgV, sgM]
    ring
  rw [if_neg c, if_neg c]
  clear c
  by_cases c : i.val = 20
  · rw [if_pos c, if_pos c]
    rw [show Spec.covSign i = Spec.covSign 20 from congrArg _ (Fin.ext (by first | exact c | exact c.2))]
    simp only [MagY_HKY23, MagY_HKY24, cov_20, sgV, sgM]
    ring
  rw [if_neg c, if_neg c]
  clear c
  by_cases c : i.val = 21
  · rw [if_pos c, if_pos c]
    rw [show Spec.covSign i = Spec.covSign 21 from congrArg _ (Fin.ext (by first | exact c | exact c.2))]
    simp only [MagY_HKY8, MagY_HKY10, MagY_HKY11, MagY_HKY12, MagY_HKY13, MagY_HKY14, MagY_HKY15, MagY_HKY24, cov_0, cov_1, cov_2, cov_3, cov_16, cov_17, cov_18, cov_20, cov_21, sgV, sgM]
    ring
  rw [if_neg c, if_neg c]
  clear c
  ring
theorem MagZ_HKZ0 : MagZ.HKZ0 (sgM Spec.covSign P) (sgV Spec.covSign s) R a b = -MagZ.HKZ0 P s R a b := by
  simp only [MagZ.HKZ0, cov_0, cov_1, cov_2, cov_16, cov_17, cov_18, sgV, sgM]
  try ring
theorem MagZ_HKZ1 : MagZ.HKZ1 (sgM Spec.covSign P) (sgV Spec.covSign s) R a b = -MagZ.HKZ1 P s R a b := by
  simp only [MagZ.HKZ1, cov_3, cov_16, sgV, sgM]
  try ring
theorem MagZ_HKZ2 : MagZ.HKZ2 (sgM Spec.covSign P) (sgV Spec.covSign s) R a b = -MagZ.HKZ2 P s R a b := by
  simp only [MagZ.HKZ2, cov_1, cov_18, sgV, sgM]
  try ring
theorem MagZ_HKZ3 : MagZ.HKZ3 (sgM Spec.covSign P) (sgV Spec.covSign s) R a b = -MagZ.HKZ3 P s R a b := by
  simp only [MagZ.HKZ3, cov_0, cov_17, sgV, sgM]
  try ring
theorem MagZ_HKZ4 : MagZ.HKZ4 (sgM Spec.covSign P) (sgV Spec.covSign s) R a b = -MagZ.HKZ4 P s R a b := by
  simp only [MagZ.HKZ4, cov_0, cov_2, cov_3, cov_16, cov_17, cov_18, sgV, sgM]
  try ring
theorem MagZ_HKZ5 : MagZ.HKZ5 (sgM Spec.covSign P) (sgV Spec.covSign s) R a b = -MagZ.HKZ5 P s R a b := by
  simp only [MagZ.HKZ5, cov_1, cov_2, cov_3, cov_16, cov_17, cov_18, sgV, sgM]
  try ring
theorem MagZ_HKZ6 : MagZ.HKZ6 (sgM Spec.covSign P) (sgV Spec.covSign s) R a b = MagZ.HKZ6 P s R a b := by
  simp only [MagZ.HKZ6, cov_0, cov_1, cov_2, cov_3, sgV, sgM]
  try ring
theorem MagZ_HKZ7 : MagZ.HKZ7 (sgM Spec.covSign P) (sgV Spec.covSign s) R a b = MagZ.HKZ7 P s R a b := by
  simp only [MagZ.HKZ7, cov_2, cov_3, sgV, sgM]
  try ring
theorem MagZ_HKZ8 : MagZ.HKZ8 (sgM Spec.covSign P) (sgV Spec.covSign s) R a b = MagZ.HKZ8 P s R a b := by
  simp only [MagZ.HKZ8, cov_0, cov_1, sgV, sgM]
  try ring
theorem MagZ_HKZ9 : MagZ.HKZ9 (sgM Spec.covSign P) (sgV Spec.covSign s) R a b = MagZ.HKZ9 P s R a b := by
  simp only [MagZ.HKZ9, cov_0, cov_1, cov_2, cov_3, sgV, sgM]
  try ring
theorem MagZ_HKZ10 : MagZ.HKZ10 (sgM Spec.covSign P) (sgV Spec.covSign s) R a b = MagZ.HKZ10 P s R a b := by
  simp only [MagZ.HKZ10, MagZ_HKZ6, sgV, sgM]
  try ring
theorem MagZ_HKZ11 : MagZ.HKZ11 (sgM Spec.covSign P) (sgV Spec.covSign s) R a b = MagZ.HKZ11 P s R a b := by
  simp only [MagZ.HKZ11, MagZ_HKZ7, MagZ_HKZ8, sgV, sgM]
  try ring
theorem MagZ_HKZ12 : MagZ.HKZ12 (sgM Spec.covSign P) (sgV Spec.covSign s) R a b = -MagZ.HKZ12 P s R a b := by
  simp only [MagZ.HKZ12, MagZ_HKZ5, sgV, sgM]
  try ring
theorem MagZ_HKZ13 : MagZ.HKZ13 (sgM Spec.covSign P) (sgV Spec.covSign s) R a b = -MagZ.HKZ13 P s R a b := by
  simp only [MagZ.HKZ13, MagZ_HKZ0, sgV, sgM]
  try ring
theorem MagZ_HKZ14 : MagZ.HKZ14 (sgM Spec.covSign P) (sgV Spec.covSign s) R a b = -MagZ.HKZ14 P s R a b := by
  simp only [MagZ.HKZ14, MagZ_HKZ1, MagZ_HKZ2, MagZ_HKZ3, sgV, sgM]
  try ring
theorem MagZ_HKZ15 : MagZ.HKZ15 (sgM Spec.covSign P) (sgV Spec.covSign s) R a b = -MagZ.HKZ15 P s R a b := by
  simp only [MagZ.HKZ15, MagZ_HKZ4, sgV, sgM]
  try ring
theorem MagZ_HKZ16 : MagZ.HKZ16 (sgM Spec.covSign P) (sgV Spec.covSign s) R a b = -MagZ.HKZ16 P s R a b := by
  simp only [MagZ.HKZ16, MagZ_HKZ9, MagZ_HKZ10, MagZ_HKZ11, MagZ_HKZ12, MagZ_HKZ13, MagZ_HKZ14, MagZ_HKZ15, cov_0, cov_1, cov_2, cov_3, cov_16, cov_17, cov_18, cov_21, sgV, sgM]
  try ring
theorem MagZ_HKZ17 : MagZ.HKZ17 (sgM Spec.covSign P) (sgV Spec.covSign s) R a b = MagZ.HKZ17 P s R a b := by
  simp only [MagZ.HKZ17, MagZ_HKZ9, MagZ_HKZ10, MagZ_HKZ11, MagZ_HKZ12, MagZ_HKZ13, MagZ_HKZ14, MagZ_HKZ15, cov_0, cov_1, cov_2, cov_3, cov_16, cov_17, cov_18, cov_21, sgV, sgM]
  try ring
theorem MagZ_HKZ18 : MagZ.HKZ18 (sgM Spec.covSign P) (sgV Spec.covSign s) R a b = MagZ.HKZ18 P s R a b := by
  simp only [MagZ.HKZ18, MagZ_HKZ9, MagZ_HKZ10, MagZ_HKZ11, MagZ_HKZ12, MagZ_HKZ13, MagZ_HKZ14, MagZ_HKZ15, cov_0, cov_1, cov_2, cov_3, cov_16, cov_17, cov_18, cov_21, sgV, sgM]
  try ring
theorem MagZ_HKZ19 : MagZ.HKZ19 (sgM Spec.covSign P) (sgV Spec.covSign s) R a b = -MagZ.HKZ19 P s R a b := by
  simp only [MagZ.HKZ19, MagZ_HKZ9, MagZ_HKZ10, MagZ_HKZ11, MagZ_HKZ12, MagZ_HKZ13, MagZ_HKZ14, MagZ_HKZ15, cov_0, cov_1, cov_2, cov_3, cov_16, cov_17, cov_18, cov_21, sgV, sgM]
  try ring
theorem MagZ_HKZ20 : MagZ.HKZ20 (sgM Spec.covSign P) (sgV Spec.covSign s) R a b = MagZ.HKZ20 P s R a b := by
  simp only [MagZ.HKZ20, MagZ_HKZ9, MagZ_HKZ10, MagZ_HKZ11, MagZ_HKZ12, MagZ_HKZ13, MagZ_HKZ14, MagZ_HKZ15, cov_0, cov_1, cov_2, cov_3, cov_16, cov_17, cov_18, cov_21, sgV, sgM]
  try ring
theorem MagZ_HKZ21 : MagZ.HKZ21 (sgM Spec.covSign P) (sgV Spec.covSign s) R a b = -MagZ.HKZ21 P s R a b := by
  simp only [MagZ.HKZ21, MagZ_HKZ9, MagZ_HKZ10, MagZ_HKZ11, MagZ_HKZ12, MagZ_HKZ13, MagZ_HKZ14, MagZ_HKZ15, cov_0, cov_1, cov_2, cov_3, cov_16, cov_17, cov_18, cov_21, sgV, sgM]
  try ring
theorem MagZ_HKZ22 : MagZ.HKZ22 (sgM Spec.covSign P) (sgV Spec.covSign s) R a b = -MagZ.HKZ22 P s R a b := by
  simp only [MagZ.HKZ22, MagZ_HKZ9, MagZ_HKZ10, MagZ_HKZ11, MagZ_HKZ12, MagZ_HKZ13, MagZ_HKZ14, MagZ_HKZ15, cov_0, cov_1, cov_2, cov_3, cov_16, cov_17, cov_18, cov_21, sgV, sgM]
  try ring
theorem MagZ_HKZ23 : MagZ.HKZ23 (sgM Spec.covSign P) (sgV Spec.covSign s) R a b = MagZ.HKZ23 P s R a b := by
  simp only [MagZ.HKZ23, MagZ_HKZ9, MagZ_HKZ10, MagZ_HKZ11, MagZ_HKZ12, MagZ_HKZ13, MagZ_HKZ14, MagZ_HKZ15, cov_0, cov_1, cov_2, cov_3, cov_16, cov_17, cov_18, cov_21, sgV, sgM]
  try ring
theorem MagZ_S : MagZ.S (sgM Spec.covSign P) (sgV Spec.covSign s) R a b = MagZ.S P s R a b := by
  simp only [MagZ.S, MagZ_HKZ9, MagZ_HKZ10, MagZ_HKZ11, MagZ_HKZ12, MagZ_HKZ13, MagZ_HKZ14, MagZ_HKZ15, MagZ_HKZ16, MagZ_HKZ17, MagZ_HKZ18, MagZ_HKZ19, MagZ_HKZ20, MagZ_HKZ21, MagZ_HKZ22, MagZ_HKZ23, sgV, sgM]
  try ring
theorem MagZ_HKZ24 : MagZ.HKZ24 (sgM Spec.covSign P) (sgV Spec.covSign s) R a b = MagZ.HKZ24 P s R a b := by
  simp only [MagZ.HKZ24, MagZ_S, sgV, sgM]
  try ring
theorem MagZ_hList : MagZ.hList (sgM Spec.covSign P) (sgV Spec.covSign s) R a b = (MagZ.hList P s R a b).map fun p => (p.1, (1 : ℝ) * (Spec.covSign p.1 * p.2)) := by
  simp only [MagZ.hList, List.map_cons, List.map_nil, MagZ_HKZ0, MagZ_HKZ1, MagZ_HKZ2, MagZ_HKZ3, MagZ_HKZ4, MagZ_HKZ5, MagZ_HKZ6, MagZ_HKZ7, MagZ_HKZ8, MagZ_HKZ9, cov_0, cov_1, cov_2, cov_3, cov_16, cov_17, cov_18, cov_21, sgV, sgM, List.cons.injEq, Prod.mk.injEq, true_and, and_true]
  refine ⟨by ring, by ring, by ring, by ring, by ring, by ring, by ring, by ring⟩
theorem MagZ_gain : MagZ.gain all (sgM Spec.covSign P) (sgV Spec.covSign s) R a b = fun i => (1 : ℝ) * (Spec.covSign i * MagZ.gain all P s R a b i) := by
  funext i
  unfold MagZ.gain
  by_cases c : all = true ∧ i.val = 0
  · rw [if_pos c, if_pos c]
    rw [show Spec.covSign i = Spec.covSign 0 from congrArg _ (Fin.ext (by first | exact c | exact c.2))]
    simp only [MagZ_HKZ16, MagZ_HKZ24, cov_0, sgV, sgM]
    ring
  rw [if_neg c, if_neg c]
  clear c
  by_cases c : all = true ∧ i.val = 1
  · rw [if_pos c, if_pos c]
    rw [show Spec.covSign i = Spec.covSign 1 from congrArg _ (Fin.ext (by first | exact c | exact c.2))]
    simp only [MagZ_HKZ19, MagZ_HKZ24, cov_1, sgV, sgM]
    ring
  rw [if_neg c, if_neg c]
  clear c
  by_cases c : all = true ∧ i.val = 2
  · rw [if_pos c, if_pos c]
    rw [show Spec.covSign i = Spec.covSign 2 from congrArg _ (Fin.ext (by first | exact c | exact c.2))]
    simp only [MagZ_HKZ22, MagZ_HKZ24, cov_2, sgV, sgM]
    ring
  rw [if_neg c, if_neg c]
  clear c
  by_cases c : all = true ∧ i.val = 3
  · rw [if_pos c, if_pos c]
    rw [show Spec.covSign i = Spec.covSign 3 from congrArg _ (Fin.ext (by first | exact c | exact c.2))]
    simp only [MagZ_HKZ21, MagZ_HKZ24, cov_3, sgV, sgM]
    ring
  rw [if_neg c, if_neg c]
  clear c
  by_cases c : all = true ∧ 4 ≤ i.val ∧ i.val ≤ 15
  · rw [if_pos c, if_pos c]
    simp only [MagZ_HKZ9, MagZ_HKZ10, MagZ_HKZ11, MagZ_HKZ12, MagZ_HKZ13, MagZ_HKZ14, MagZ_HKZ15, MagZ_HKZ24, cov_0, cov_1, cov_2, cov_3, cov_16, cov_17, cov_18, cov_21, sgV, sgM]
    ring
  rw [if_neg c, if_neg c]
  clear c
  by_cases c : all = true ∧ 22 ≤ i.val ∧ i.val ≤ 23
  · rw [if_pos c, if_pos c]
    simp only [MagZ_HKZ9, MagZ_HKZ10, MagZ_HKZ11, MagZ_HKZ12, MagZ_HKZ13, MagZ_HKZ14, MagZ_HKZ15, MagZ_HKZ24, cov_0, cov_1, cov_2, cov_3, cov_16, cov_17, cov_18, cov_21, sgV, sgM]
    ring
  rw [if_neg c, if_neg c]
  clear c
  by_cases c : i.val = 16
  · rw [if_pos c, if_pos c]
    rw [show Spec.covSign i = Spec.covSign 16 from congrArg _ (Fin.ext (by first | exact c | exact c.2))]
    simp only [MagZ_HKZ20, MagZ_HKZ24, cov_16, sgV, sgM]
    ring
  rw [if_neg c, if_neg c]
  clear c
  by_cases c : i.val = 17
  · rw [if_pos c, if_pos c]
    rw [show Spec.covSign i = Spec.covSign 17 from congrArg _ (Fin.ext (by first | exact c | exact c.2))]
    simp only [MagZ_HKZ18, MagZ_HKZ24, cov_17, sgV, sgM]
    ring
  rw [if_neg c, if_neg c]
  clear c
  by_cases c : i.val = 18
  · rw [if_pos c, if_pos c]
    rw [show Spec.covSign i = Spec.covSign 18 from congrArg _ (Fin.ext (by first | exact c | exact c.2))]
    simp only [MagZ_HKZ17, MagZ_HKZ24, cov_18, sgV, sgM]
    ring
  rw [if_neg c, if_neg c]
  clear c
  by_cases c : 19 ≤ i.val ∧ i.val ≤ 20
  · rw [if_pos c, if_pos c]
    simp only [MagZ_HKZ9, MagZ_HKZ10, MagZ_HKZ11, MagZ_HKZ12, MagZ_HKZ13, MagZ_HKZ14, MagZ_HKZ15, MagZ_HKZ24, cov_0, cov_1, cov_2, cov_3, cov_16, cov_17, cov_18, cov_21, sgV, sgM]
    ring
  rw [if_neg c, if_neg c]
  clear c
  by_cases c : i.val = 21
  · rw [if_pos c, if_pos c]
    rw [show Spec.covSign i = Spec.covSign 21 from congrArg _ (Fin.ext (by first | exact c | exact c.2))]
    simp only [MagZ_HKZ23, MagZ_HKZ24, cov_21, sgV, sgM]
    ring
  rw [if_neg c, if_neg c]
  clear c
  ring
theorem MagIV_IV0 : MagIV.IV0 (sgM Spec.covSign P) (sgV Spec.covSign s) R a b = MagIV.IV0 P s R a b := by
  simp only [MagIV.IV0, cov_0, cov_1, sgV, sgM]
  try ring
theorem MagIV_IV1 : MagIV.IV1 (sgM Spec.covSign P) (sgV Spec.covSign s) R a b = MagIV.IV1 P s R a b := by
  simp only [MagIV.IV1, cov_2, cov_3, sgV, sgM]
  try ring
theorem MagIV_IV2 : MagIV.IV2 (sgM Spec.covSign P) (sgV Spec.covSign s) R a b = MagIV.IV2 P s R a b := by
  simp only [MagIV.IV2, MagIV_IV0, MagIV_IV1, sgV, sgM]
  try ring
theorem MagIV_IV3 : MagIV.IV3 (sgM Spec.covSign P) (sgV Spec.covSign s) R a b = MagIV.IV3 P s R a b := by
  simp only [MagIV.IV3, cov_0, cov_1, cov_2, cov_3, sgV, sgM]
  try ring
theorem MagIV_IV4 : MagIV.IV4 (sgM Spec.covSign P) (sgV Spec.covSign s) R a b = -MagIV.IV4 P s R a b := by
  simp only [MagIV.IV4, cov_1, cov_2, cov_3, cov_16, cov_17, cov_18, sgV, sgM]
  try ring
theorem MagIV_IV5 : MagIV.IV5 (sgM Spec.covSign P) (sgV Spec.covSign s) R a b = -MagIV.IV5 P s R a b := by
  simp only [MagIV.IV5, cov_0, cov_1, cov_3, cov_16, cov_17, cov_18, sgV, sgM]
  try ring
theorem MagIV_IV6 : MagIV.IV6 (sgM Spec.covSign P) (sgV Spec.covSign s) R a b = -MagIV.IV6 P s R a b := by
  simp only [MagIV.IV6, cov_0, cov_1, cov_2, cov_16, cov_17, cov_18, sgV, sgM]
  try ring
theorem MagIV_IV7 : MagIV.IV7 (sgM Spec.covSign P) (sgV Spec.covSign s) R a b = -MagIV.IV7 P s R a b := by
  simp only [MagIV.IV7, cov_0, cov_2, cov_3, cov_16, cov_17, cov_18, sgV, sgM]
  try ring
theorem MagIV_IV8 : MagIV.IV8 (sgM Spec.covSign P) (sgV Spec.covSign s) R a b = MagIV.IV8 P s R a b := by
  simp only [MagIV.IV8, cov_2, sgV, sgM]
  try ring
theorem MagIV_IV9 : MagIV.IV9 (sgM Spec.covSign P) (sgV Spec.covSign s) R a b = MagIV.IV9 P s R a b := by
  simp only [MagIV.IV9, cov_3, sgV, sgM]
  try ring
theorem MagIV_IV10 : MagIV.IV10 (sgM Spec.covSign P) (sgV Spec.covSign s) R a b = MagIV.IV10 P s R a b := by
  simp only [MagIV.IV10, cov_0, cov_1, sgV, sgM]
  try ring
theorem MagIV_IV11 : MagIV.IV11 (sgM Spec.covSign P) (sgV Spec.covSign s) R a b = MagIV.IV11 P s R a b := by
  simp only [MagIV.IV11, MagIV_IV8, MagIV_IV9, MagIV_IV10, sgV, sgM]
  try ring
theorem MagIV_IV12 : MagIV.IV12 (sgM Spec.covSign P) (sgV Spec.covSign s) R a b = -MagIV.IV12 P s R a b := by
  simp only [MagIV.IV12, MagIV_IV7, cov_2, cov_3, sgV, sgM]
  try ring
theorem MagIV_IV13 : MagIV.IV13 (sgM Spec.covSign P) (sgV Spec.covSign s) R a b = -MagIV.IV13 P s R a b := by
  simp only [MagIV.IV13, MagIV_IV5, cov_0, cov_1, sgV, sgM]
  try ring
theorem MagIV_IV14 : MagIV.IV14 (sgM Spec.covSign P) (sgV Spec.covSign s) R a b = -MagIV.IV14 P s R a b := by
  simp only [MagIV.IV14, MagIV_IV6, cov_0, cov_1, sgV, sgM]
  try ring
theorem MagIV_IV15 : MagIV.IV15 (sgM Spec.covSign P) (sgV Spec.covSign s) R a b = -MagIV.IV15 P s R a b := by
  simp only [MagIV.IV15, MagIV_IV4, cov_2, cov_3, sgV, sgM]
  try ring
theorem MagIV_IV16 : MagIV.IV16 (sgM Spec.covSign P) (sgV Spec.covSign s) R a b = MagIV.IV16 P s R a b := by
  simp only [MagIV.IV16, cov_0, cov_1, cov_2, cov_3, sgV, sgM]
  try ring
theorem MagIV_IV17 : MagIV.IV17 (sgM Spec.covSign P) (sgV Spec.covSign s) R a b = MagIV.IV17 P s R a b := by
  simp only [MagIV.IV17, MagIV_IV0, MagIV_IV1, sgV, sgM]
  try ring
theorem MagIV_IV18 : MagIV.IV18 (sgM Spec.covSign P) (sgV Spec.covSign s) R a b = MagIV.IV18 P s R a b := by
  simp only [MagIV.IV18, MagIV_IV8, MagIV_IV9, MagIV_IV10, sgV, sgM]
  try ring
theorem MagIV_S1 : MagIV.S1 (sgM Spec.covSign P) (sgV Spec.covSign s) R a b = MagIV.S1 P s R a b := by
  simp only [MagIV.S1, MagIV_IV2, MagIV_IV3, MagIV_IV4, MagIV_IV5, MagIV_IV6, MagIV_IV7, MagIV_IV11, MagIV_IV12, MagIV_IV13, MagIV_IV14, MagIV_IV15, cov_0, cov_1, cov_2, cov_3, cov_16, cov_17, cov_18, cov_20, sgV, sgM]
  try ring
theorem MagIV_S2 : MagIV.S2 (sgM Spec.covSign P) (sgV Spec.covSign s) R a b = MagIV.S2 P s R a b := by
  simp only [MagIV.S2, MagIV_IV4, MagIV_IV5, MagIV_IV6, MagIV_IV7, MagIV_IV12, MagIV_IV13, MagIV_IV14, MagIV_IV15, MagIV_IV16, MagIV_IV17, MagIV_IV18, cov_0, cov_1, cov_2, cov_3, cov_16, cov_17, cov_18, cov_21, sgV, sgM]
  try ring
theorem Asp_HK0 : Asp.HK0 (sgM Spec.covSign P) (sgV Spec.covSign s) R a b = Asp.HK0 P s R a b := by
  simp only [Asp.HK0, cov_4, cov_22, sgV, sgM]
  try ring
theorem Asp_HK1 : Asp.HK1 (sgM Spec.covSign P) (sgV Spec.covSign s) R a b = Asp.HK1 P s R a b := by
  simp only [Asp.HK1, cov_5, cov_23, sgV, sgM]
  try ring
theorem Asp_HK2 : Asp.HK2 (sgM Spec.covSign P) (sgV Spec.covSign s) R a b = Asp.HK2 P s R a b := by
  simp only [Asp.HK2, Asp_HK0, Asp_HK1, cov_6, sgV, sgM]
  try ring
theorem Asp_HK3 : Asp.HK3 (sgM Spec.covSign P) (sgV Spec.covSign s) R a b = Asp.HK3 P s R a b := by
  simp only [Asp.HK3, sgV, sgM]
  try ring
theorem Asp_HK4 : Asp.HK4 (sgM Spec.covSign P) (sgV Spec.covSign s) R a b = Asp.HK4 P s R a b := by
  simp only [Asp.HK4, Asp_HK0, Asp_HK3, sgV, sgM]
  try ring
theorem Asp_HK5 : Asp.HK5 (sgM Spec.covSign P) (sgV Spec.covSign s) R a b = Asp.HK5 P s R a b := by
  simp only [Asp.HK5, Asp_HK1, Asp_HK3, sgV, sgM]
  try ring
theorem Asp_HK6 : Asp.HK6 (sgM Spec.covSign P) (sgV Spec.covSign s) R a b = Asp.HK6 P s R a b := by
  simp only [Asp.HK6, Asp_HK2, sgV, sgM]
  try ring
theorem Asp_HK7 : Asp.HK7 (sgM Spec.covSign P) (sgV Spec.covSign s) R a b = Asp.HK7 P s R a b := by
  simp only [Asp.HK7, Asp_HK0, Asp_HK1, cov_4, cov_5, cov_6, cov_22, cov_23, sgV, sgM]
  try ring
theorem Asp_HK8 : Asp.HK8 (sgM Spec.covSign P) (sgV Spec.covSign s) R a b = Asp.HK8 P s R a b := by
  simp only [Asp.HK8, Asp_HK1, cov_5, cov_23, sgV, sgM]
  try ring
theorem Asp_HK9 : Asp.HK9 (sgM Spec.covSign P) (sgV Spec.covSign s) R a b = Asp.HK9 P s R a b := by
  simp only [Asp.HK9, Asp_HK0, Asp_HK1, Asp_HK8, cov_4, cov_5, cov_6, cov_22, sgV, sgM]
  try ring
theorem Asp_HK10 : Asp.HK10 (sgM Spec.covSign P) (sgV Spec.covSign s) R a b = Asp.HK10 P s R a b := by
  simp only [Asp.HK10, Asp_HK1, Asp_HK6, sgV, sgM]
  try ring
theorem Asp_HK11 : Asp.HK11 (sgM Spec.covSign P) (sgV Spec.covSign s) R a b = Asp.HK11 P s R a b := by
  simp only [Asp.HK11, Asp_HK0, cov_4, cov_22, sgV, sgM]
  try ring
theorem Asp_HK12 : Asp.HK12 (sgM Spec.covSign P) (sgV Spec.covSign s) R a b = Asp.HK12 P s R a b := by
  simp only [Asp.HK12, Asp_HK0, Asp_HK1, Asp_HK11, cov_4, cov_5, cov_6, cov_23, sgV, sgM]
  try ring
theorem Asp_HK13 : Asp.HK13 (sgM Spec.covSign P) (sgV Spec.covSign s) R a b = Asp.HK13 P s R a b := by
  simp only [Asp.HK13, Asp_HK0, Asp_HK6, sgV, sgM]
  try ring
theorem Asp_HK14 : Asp.HK14 (sgM Spec.covSign P) (sgV Spec.covSign s) R a b = Asp.HK14 P s R a b := by
  simp only [Asp.HK14, Asp_HK0, Asp_HK1, Asp_HK8, cov_4, cov_6, cov_22, cov_23, sgV, sgM]
  try ring
theorem Asp_HK15 : Asp.HK15 (sgM Spec.covSign P) (sgV Spec.covSign s) R a b = Asp.HK15 P s R a b := by
  simp only [Asp.HK15, Asp_HK0, Asp_HK1, Asp_HK11, cov_5, cov_6, cov_22, cov_23, sgV, sgM]
  try ring
theorem Asp_S : Asp.S (sgM Spec.covSign P) (sgV Spec.covSign s) R a b = Asp.S P s R a b := by
  simp only [Asp.S, Asp_HK6, Asp_HK7, Asp_HK9, Asp_HK10, Asp_HK12, Asp_HK13, Asp_HK14, Asp_HK15, cov_6, sgV, sgM]
  try ring
theorem Asp_HK16 : Asp.HK16 (sgM Spec.covSign P) (sgV Spec.covSign s) R a b = Asp.HK16 P s R a b := by
  simp only [Asp.HK16, Asp_HK3, Asp_S, sgV, sgM]
  try ring
theorem Asp_hList : Asp.hList (sgM Spec.covSign P) (sgV Spec.covSign s) R a b = (Asp.hList P s R a b).map fun p => (p.1, (1 : ℝ) * (Spec.covSign p.1 * p.2)) := by
  simp only [Asp.hList, List.map_cons, List.map_nil, Asp_HK3, Asp_HK4, Asp_HK5, cov_4, cov_5, cov_6, cov_22, cov_23, sgV, sgM, List.cons.injEq, Prod.mk.injEq, true_and, and_true]
  refine ⟨by ring, by ring, by ring, by ring, by ring⟩
theorem Asp_gain : Asp.gain all (sgM Spec.covSign P) (sgV Spec.covSign s) R a b = fun i => (1 : ℝ) * (Spec.covSign i * Asp.gain all P s R a b i) := by
  funext i
  unfold Asp.gain
  by_cases c : all = true ∧ 0 ≤ i.val ∧ i.val ≤ 3
  · rw [if_pos c, if_pos c]
    simp only [Asp_HK0, Asp_HK1, Asp_HK16, cov_4, cov_5, cov_6, cov_22, cov_23, sgV, sgM]
    ring
  rw [if_neg c, if_neg c]
  clear c
  by_cases c : all = true ∧ i.val = 4
  · rw [if_pos c, if_pos c]
    rw [show Spec.covSign i = Spec.covSign 4 from congrArg _ (Fin.ext (by first | exact c | exact c.2))]
    simp only [Asp_HK12, Asp_HK16, cov_4, sgV, sgM]
    ring
  rw [if_neg c, if_neg c]
  clear c
  by_cases c : all = true ∧ i.val = 5
  · rw [if_pos c, if_pos c]
    rw [show Spec.covSign i = Spec.covSign 5 from congrArg _ (Fin.ext (by first | exact c | exact c.2))]
    simp only [Asp_HK9, Asp_HK16, cov_5, sgV, sgM]
    ring
  rw [if_neg c, if_neg c]
  clear c
  by_cases c : all = true ∧ i.val = 6
  · rw [if_pos c, if_pos c]
    rw [show Spec.covSign i = Spec.covSign 6 from congrArg _ (Fin.ext (by first | exact c | exact c.2))]
    simp only [Asp_HK7, Asp_HK16, cov_6, sgV, sgM]
    ring
  rw [if_neg c, if_neg c]
  clear c
  by_cases c : all = true ∧ 7 ≤ i.val ∧ i.val ≤ 21
  · rw [if_pos c, if_pos c]
    simp only [Asp_HK0, Asp_HK1, Asp_HK16, cov_4, cov_5, cov_6, cov_22, cov_23, sgV, sgM]
    ring
  rw [if_neg c, if_neg c]
  clear c
  by_cases c : i.val = 22
  · rw [if_pos c, if_pos c]
    rw [show Spec.covSign i = Spec.covSign 22 from congrArg _ (Fin.ext (by first | exact c | exact c.2))]
    simp only [Asp_HK15, Asp_HK16, cov_22, sgV, sgM]
    ring
  rw [if_neg c, if_neg c]
  clear c
  by_cases c : i.val = 23
  · rw [if_pos c, if_pos c]
    rw [show Spec.covSign i = Spec.covSign 23 from congrArg _ (Fin.ext (by first | exact c | exact c.2))]
    simp only [Asp_HK14, Asp_HK16, cov_23, sgV, sgM]
    ring
  rw [if_neg c, if_neg c]
  clear c
  ring
theorem Beta_HK0 : Beta.HK0 (sgM Spec.covSign P) (sgV Spec.covSign s) R a b = Beta.HK0 P s R a b := by
  simp only [Beta.HK0, cov_4, cov_22, sgV, sgM]
  try ring
theorem Beta_HK1 : Beta.HK1 (sgM Spec.covSign P) (sgV Spec.covSign s) R a b = Beta.HK1 P s R a b := by
  simp only [Beta.HK1, cov_5, cov_23, sgV, sgM]
  try ring
theorem Beta_HK2 : Beta.HK2 (sgM Spec.covSign P) (sgV Spec.covSign s) R a b = -Beta.HK2 P s R a b := by
  simp only [Beta.HK2, Beta_HK0, Beta_HK1, cov_0, cov_2, cov_3, cov_6, sgV, sgM]
  try ring
theorem Beta_HK3 : Beta.HK3 (sgM Spec.covSign P) (sgV Spec.covSign s) R a b = Beta.HK3 P s R a b := by
  simp only [Beta.HK3, cov_0, cov_1, cov_2, cov_3, sgV, sgM]
  try ring
theorem Beta_HK4 : Beta.HK4 (sgM Spec.covSign P) (sgV Spec.covSign s) R a b = Beta.HK4 P s R a b := by
  simp only [Beta.HK4, cov_6, sgV, sgM]
  try ring
theorem Beta_HK5 : Beta.HK5 (sgM Spec.covSign P) (sgV Spec.covSign s) R a b = Beta.HK5 P s R a b := by
  simp only [Beta.HK5, cov_0, cov_3, sgV, sgM]
  try ring
theorem Beta_HK6 : Beta.HK6 (sgM Spec.covSign P) (sgV Spec.covSign s) R a b = Beta.HK6 P s R a b := by
  simp only [Beta.HK6, cov_1, cov_2, sgV, sgM]
  try ring
theorem Beta_HK7 : Beta.HK7 (sgM Spec.covSign P) (sgV Spec.covSign s) R a b = Beta.HK7 P s R a b := by
  simp only [Beta.HK7, Beta_HK5, Beta_HK6, sgV, sgM]
  try ring
theorem Beta_HK8 : Beta.HK8 (sgM Spec.covSign P) (sgV Spec.covSign s) R a b = Beta.HK8 P s R a b := by
  simp only [Beta.HK8, cov_0, sgV, sgM]
  try ring
theorem Beta_HK9 : Beta.HK9 (sgM Spec.covSign P) (sgV Spec.covSign s) R a b = Beta.HK9 P s R a b := by
  simp only [Beta.HK9, cov_3, sgV, sgM]
  try ring
theorem Beta_HK10 : Beta.HK10 (sgM Spec.covSign P) (sgV Spec.covSign s) R a b = Beta.HK10 P s R a b := by
  simp only [Beta.HK10, Beta_HK8, Beta_HK9, sgV, sgM]
  try ring
theorem Beta_HK11 : Beta.HK11 (sgM Spec.covSign P) (sgV Spec.covSign s) R a b = Beta.HK11 P s R a b := by
  simp only [Beta.HK11, cov_1, sgV, sgM]
  try ring
theorem Beta_HK12 : Beta.HK12 (sgM Spec.covSign P) (sgV Spec.covSign s) R a b = Beta.HK12 P s R a b := by
  simp only [Beta.HK12, cov_2, sgV, sgM]
  try ring
theorem Beta_HK13 : Beta.HK13 (sgM Spec.covSign P) (sgV Spec.covSign s) R a b = Beta.HK13 P s R a b := by
  simp only [Beta.HK13, Beta_HK11, Beta_HK12, sgV, sgM]
  try ring
theorem Beta_HK14 : Beta.HK14 (sgM Spec.covSign P) (sgV Spec.covSign s) R a b = Beta.HK14 P s R a b := by
  simp only [Beta.HK14, Beta_HK10, Beta_HK13, sgV, sgM]
  try ring
theorem Beta_HK15 : Beta.HK15 (sgM Spec.covSign P) (sgV Spec.covSign s) R a b = Beta.HK15 P s R a b := by
  simp only [Beta.HK15, Beta_HK0, Beta_HK1, Beta_HK3, Beta_HK4, Beta_HK7, Beta_HK14, sgV, sgM]
  try ring
theorem Beta_HK16 : Beta.HK16 (sgM Spec.covSign P) (sgV Spec.covSign s) R a b = Beta.HK16 P s R a b := by
  simp only [Beta.HK16, Beta_HK15, sgV, sgM]
  try ring
theorem Beta_HK17 : Beta.HK17 (sgM Spec.covSign P) (sgV Spec.covSign s) R a b = Beta.HK17 P s R a b := by
  simp only [Beta.HK17, cov_0, cov_1, cov_2, cov_3, sgV, sgM]
  try ring
theorem Beta_HK18 : Beta.HK18 (sgM Spec.covSign P) (sgV Spec.covSign s) R a b = Beta.HK18 P s R a b := by
  simp only [Beta.HK18, Beta_HK10, Beta_HK11, Beta_HK12, sgV, sgM]
  try ring
theorem Beta_HK19 : Beta.HK19 (sgM Spec.covSign P) (sgV Spec.covSign s) R a b = Beta.HK19 P s R a b := by
  simp only [Beta.HK19, Beta_HK0, Beta_HK1, Beta_HK4, Beta_HK5, Beta_HK6, Beta_HK16, Beta_HK17, Beta_HK18, sgV, sgM]
  try ring
theorem Beta_HK20 : Beta.HK20 (sgM Spec.covSign P) (sgV Spec.covSign s) R a b = -Beta.HK20 P s R a b := by
  simp only [Beta.HK20, Beta_HK0, Beta_HK1, cov_0, cov_1, cov_3, cov_6, sgV, sgM]
  try ring
theorem Beta_HK21 : Beta.HK21 (sgM Spec.covSign P) (sgV Spec.covSign s) R a b = -Beta.HK21 P s R a b := by
  simp only [Beta.HK21, Beta_HK2, Beta_HK19, Beta_HK20, sgV, sgM]
  try ring
theorem Beta_HK22 : Beta.HK22 (sgM Spec.covSign P) (sgV Spec.covSign s) R a b = Beta.HK22 P s R a b := by
  simp only [Beta.HK22, Beta_HK16, sgV, sgM]
  try ring
theorem Beta_HK23 : Beta.HK23 (sgM Spec.covSign P) (sgV Spec.covSign s) R a b = -Beta.HK23 P s R a b := by
  simp only [Beta.HK23, Beta_HK0, Beta_HK1, cov_1, cov_2, cov_3, cov_6, sgV, sgM]
  try ring
theorem Beta_HK24 : Beta.HK24 (sgM Spec.covSign P) (sgV Spec.covSign s) R a b = -Beta.HK24 P s R a b := by
  simp only [Beta.HK24, Beta_HK0, Beta_HK1, cov_0, cov_1, cov_2, cov_6, sgV, sgM]
  try ring
theorem Beta_HK25 : Beta.HK25 (sgM Spec.covSign P) (sgV Spec.covSign s) R a b = -Beta.HK25 P s R a b := by
  simp only [Beta.HK25, Beta_HK19, Beta_HK23, Beta_HK24, sgV, sgM]
  try ring
theorem Beta_HK26 : Beta.HK26 (sgM Spec.covSign P) (sgV Spec.covSign s) R a b = -Beta.HK26 P s R a b := by
  simp only [Beta.HK26, Beta_HK19, Beta_HK23, Beta_HK24, sgV, sgM]
  try ring
theorem Beta_HK27 : Beta.HK27 (sgM Spec.covSign P) (sgV Spec.covSign s) R a b = -Beta.HK27 P s R a b := by
  simp only [Beta.HK27, Beta_HK2, Beta_HK19, Beta_HK20, sgV, sgM]
  try ring
theorem Beta_HK28 : Beta.HK28 (sgM Spec.covSign P) (sgV Spec.covSign s) R a b = Beta.HK28 P s R a b := by
  simp only [Beta.HK28, Beta_HK5, Beta_HK6, Beta_HK14, Beta_HK19, sgV, sgM]
  try ring
theorem Beta_HK29 : Beta.HK29 (sgM Spec.covSign P) (sgV Spec.covSign s) R a b = Beta.HK29 P s R a b := by
  simp only [Beta.HK29, Beta_HK16, Beta_HK28, sgV, sgM]
  try ring
theorem Beta_HK30 : Beta.HK30 (sgM Spec.covSign P) (sgV Spec.covSign s) R a b = Beta.HK30 P s R a b := by
  simp only [Beta.HK30, Beta_HK7, Beta_HK19, sgV, sgM]
  try ring
theorem Beta_HK31 : Beta.HK31 (sgM Spec.covSign P) (sgV Spec.covSign s) R a b = Beta.HK31 P s R a b := by
  simp only [Beta.HK31, Beta_HK3, Beta_HK17, Beta_HK19, sgV, sgM]
  try ring
theorem Beta_HK32 : Beta.HK32 (sgM Spec.covSign P) (sgV Spec.covSign s) R a b = Beta.HK32 P s R a b := by
  simp only [Beta.HK32, Beta_HK8, Beta_HK9, Beta_HK13, Beta_HK30, sgV, sgM]
  try ring
theorem Beta_HK33 : Beta.HK33 (sgM Spec.covSign P) (sgV Spec.covSign s) R a b = Beta.HK33 P s R a b := by
  simp only [Beta.HK33, Beta_HK31, sgV, sgM]
  try ring
theorem Beta_HK34 : Beta.HK34 (sgM Spec.covSign P) (sgV Spec.covSign s) R a b = -Beta.HK34 P s R a b := by
  simp only [Beta.HK34, Beta_HK26, sgV, sgM]
  try ring
theorem Beta_HK35 : Beta.HK35 (sgM Spec.covSign P) (sgV Spec.covSign s) R a b = -Beta.HK35 P s R a b := by
  simp only [Beta.HK35, Beta_HK25, sgV, sgM]
  try ring
theorem Beta_HK36 : Beta.HK36 (sgM Spec.covSign P) (sgV Spec.covSign s) R a b = -Beta.HK36 P s R a b := by
  simp only [Beta.HK36, Beta_HK27, sgV, sgM]
  try ring
theorem Beta_HK37 : Beta.HK37 (sgM Spec.covSign P) (sgV Spec.covSign s) R a b = -Beta.HK37 P s R a b := by
  simp only [Beta.HK37, Beta_HK21, sgV, sgM]
  try ring
theorem Beta_HK38 : Beta.HK38 (sgM Spec.covSign P) (sgV Spec.covSign s) R a b = -Beta.HK38 P s R a b := by
  simp only [Beta.HK38, Beta_HK28, Beta_HK32, Beta_HK33, Beta_HK34, Beta_HK35, Beta_HK36, Beta_HK37, cov_0, cov_1, cov_2, cov_3, cov_4, cov_5, cov_6, cov_22, cov_23, sgV, sgM]
  try ring
theorem Beta_HK39 : Beta.HK39 (sgM Spec.covSign P) (sgV Spec.covSign s) R a b = Beta.HK39 P s R a b := by
  simp only [Beta.HK39, Beta_HK15, sgV, sgM]
  try ring
theorem Beta_HK40 : Beta.HK40 (sgM Spec.covSign P) (sgV Spec.covSign s) R a b = Beta.HK40 P s R a b := by
  simp only [Beta.HK40, Beta_HK28, Beta_HK32, Beta_HK33, Beta_HK34, Beta_HK35, Beta_HK36, Beta_HK37, cov_0, cov_1, cov_2, cov_3, cov_4, cov_5, cov_6, cov_22, cov_23, sgV, sgM]
  try ring
theorem Beta_HK41 : Beta.HK41 (sgM Spec.covSign P) (sgV Spec.covSign s) R a b = Beta.HK41 P s R a b := by
  simp only [Beta.HK41, Beta_HK32, cov_5, cov_23, sgV, sgM]
  try ring
theorem Beta_HK42 : Beta.HK42 (sgM Spec.covSign P) (sgV Spec.covSign s) R a b = Beta.HK42 P s R a b := by
  simp only [Beta.HK42, Beta_HK28, Beta_HK32, Beta_HK33, Beta_HK34, Beta_HK35, Beta_HK36, Beta_HK37, Beta_HK41, cov_0, cov_1, cov_2, cov_3, cov_4, cov_6, cov_22, cov_23, sgV, sgM]
  try ring
theorem Beta_HK43 : Beta.HK43 (sgM Spec.covSign P) (sgV Spec.covSign s) R a b = Beta.HK43 P s R a b := by
  simp only [Beta.HK43, Beta_HK32, Beta_HK39, sgV, sgM]
  try ring
theorem Beta_HK44 : Beta.HK44 (sgM Spec.covSign P) (sgV Spec.covSign s) R a b = Beta.HK44 P s R a b := by
  simp only [Beta.HK44, Beta_HK28, cov_4, cov_22, sgV, sgM]
  try ring
theorem Beta_HK45 : Beta.HK45 (sgM Spec.covSign P) (sgV Spec.covSign s) R a b = Beta.HK45 P s R a b := by
  simp only [Beta.HK45, Beta_HK28, Beta_HK32, Beta_HK33, Beta_HK34, Beta_HK35, Beta_HK36, Beta_HK37, Beta_HK44, cov_0, cov_1, cov_2, cov_3, cov_5, cov_6, cov_22, cov_23, sgV, sgM]
  try ring
theorem Beta_HK46 : Beta.HK46 (sgM Spec.covSign P) (sgV Spec.covSign s) R a b = Beta.HK46 P s R a b := by
  simp only [Beta.HK46, Beta_HK28, Beta_HK39, sgV, sgM]
  try ring
theorem Beta_HK47 : Beta.HK47 (sgM Spec.covSign P) (sgV Spec.covSign s) R a b = Beta.HK47 P s R a b := by
  simp only [Beta.HK47, Beta_HK28, Beta_HK32, Beta_HK33, Beta_HK34, Beta_HK35, Beta_HK36, Beta_HK37, Beta_HK41, cov_0, cov_1, cov_2, cov_3, cov_4, cov_5, cov_6, cov_22, sgV, sgM]
  try ring
theorem Beta_HK48 : Beta.HK48 (sgM Spec.covSign P) (sgV Spec.covSign s) R a b = Beta.HK48 P s R a b := by
  simp only [Beta.HK48, Beta_HK28, Beta_HK32, Beta_HK33, Beta_HK34, Beta_HK35, Beta_HK36, Beta_HK37, Beta_HK44, cov_0, cov_1, cov_2, cov_3, cov_4, cov_5, cov_6, cov_23, sgV, sgM]
  try ring
theorem Beta_HK49 : Beta.HK49 (sgM Spec.covSign P) (sgV Spec.covSign s) R a b = -Beta.HK49 P s R a b := by
  simp only [Beta.HK49, Beta_HK28, Beta_HK32, Beta_HK33, Beta_HK34, Beta_HK35, Beta_HK36, Beta_HK37, cov_0, cov_1, cov_2, cov_3, cov_4, cov_5, cov_6, cov_22, cov_23, sgV, sgM]
  try ring
theorem Beta_HK50 : Beta.HK50 (sgM Spec.covSign P) (sgV Spec.covSign s) R a b = -Beta.HK50 P s R a b := by
  simp only [Beta.HK50, Beta_HK28, Beta_HK32, Beta_HK33, Beta_HK34, Beta_HK35, Beta_HK36, Beta_HK37, cov_0, cov_1, cov_2, cov_3, cov_4, cov_5, cov_6, cov_22, cov_23, sgV, sgM]
  try ring
theorem Beta_HK51 : Beta.HK51 (sgM Spec.covSign P) (sgV Spec.covSign s) R a b = -Beta.HK51 P s R a b := by
  simp only [Beta.HK51, Beta_HK28, Beta_HK32, Beta_HK33, Beta_HK34, Beta_HK35, Beta_HK36, Beta_HK37, cov_0, cov_1, cov_2, cov_3, cov_4, cov_5, cov_6, cov_22, cov_23, sgV, sgM]
  try ring
theorem Beta_S : Beta.S (sgM Spec.covSign P) (sgV Spec.covSign s) R a b = Beta.S P s R a b := by
  simp only [Beta.S, Beta_HK33, Beta_HK34, Beta_HK35, Beta_HK36, Beta_HK37, Beta_HK38, Beta_HK39, Beta_HK40, Beta_HK42, Beta_HK43, Beta_HK45, Beta_HK46, Beta_HK47, Beta_HK48, Beta_HK49, Beta_HK50, Beta_HK51, sgV, sgM]
  try ring
theorem Beta_HK52 : Beta.HK52 (sgM Spec.covSign P) (sgV Spec.covSign s) R a b = Beta.HK52 P s R a b := by
  simp only [Beta.HK52, Beta_HK16, Beta_S, sgV, sgM]
  try ring
theorem Beta_hList : Beta.hList (sgM Spec.covSign P) (sgV Spec.covSign s) R a b = (Beta.hList P s R a b).map fun p => (p.1, (1 : ℝ) * (Spec.covSign p.1 * p.2)) := by
  simp only [Beta.hList, List.map_cons, List.map_nil, Beta_HK16, Beta_HK18, Beta_HK21, Beta_HK22, Beta_HK25, Beta_HK26, Beta_HK27, Beta_HK29, Beta_HK30, Beta_HK31, Beta_HK32, cov_0, cov_1, cov_2, cov_3, cov_4, cov_5, cov_6, cov_22, cov_23, sgV, sgM, List.cons.injEq, Prod.mk.injEq, true_and, and_true]
  refine ⟨by ring, by ring, by ring, by ring, by ring, by ring, by ring, by ring, by ring⟩
theorem Beta_gain : Beta.gain all (sgM Spec.covSign P) (sgV Spec.covSign s) R a b = fun i => (1 : ℝ) * (Spec.covSign i * Beta.gain all P s R a b i) := by
  funext i
  unfold Beta.gain
  by_cases c : all = true ∧ i.val = 0
  · rw [if_pos c, if_pos c]
    rw [show Spec.covSign i = Spec.covSign 0 from congrArg _ (Fin.ext (by first | exact c | exact c.2))]
    simp only [Beta_HK38, Beta_HK52, cov_0, sgV, sgM]
    ring
  rw [if_neg c, if_neg c]
  clear c
  by_cases c : all = true ∧ i.val = 1
  · rw [if_pos c, if_pos c]
    rw [show Spec.covSign i = Spec.covSign 1 from congrArg _ (Fin.ext (by first | exact c | exact c.2))]
    simp only [Beta_HK50, Beta_HK52, cov_1, sgV, sgM]
    ring
  rw [if_neg c, if_neg c]
  clear c
  by_cases c : all = true ∧ i.val = 2
  · rw [if_pos c, if_pos c]
    rw [show Spec.covSign i = Spec.covSign 2 from congrArg _ (Fin.ext (by first | exact c | exact c.2))]
    simp only [Beta_HK49, Beta_HK52, cov_2, sgV, sgM]
    ring
  rw [if_neg c, if_neg c]
  clear c
  by_cases c : all = true ∧ i.val = 3
  · rw [if_pos c, if_pos c]
    rw [show Spec.covSign i = Spec.covSign 3 from congrArg _ (Fin.ext (by first | exact c | exact c.2))]
    simp only [Beta_HK51, Beta_HK52, cov_3, sgV, sgM]
    ring
  rw [if_neg c, if_neg c]
  clear c
  by_cases c : all = true ∧ i.val = 4
  · rw [if_pos c, if_pos c]
    rw [show Spec.covSign i = Spec.covSign 4 from congrArg _ (Fin.ext (by first | exact c | exact c.2))]
    simp only [Beta_HK48, Beta_HK52, cov_4, sgV, sgM]
    ring
  rw [if_neg c, if_neg c]
  clear c
  by_cases c : all = true ∧ i.val = 5
  · rw [if_pos c, if_pos c]
    rw [show Spec.covSign i = Spec.covSign 5 from congrArg _ (Fin.ext (by first | exact c | exact c.2))]
    simp only [Beta_HK47, Beta_HK52, cov_5, sgV, sgM]
    ring
  rw [if_neg c, if_neg c]
  clear c
  by_cases c : all = true ∧ i.val = 6
  · rw [if_pos c, if_pos c]
    rw [show Spec.covSign i = Spec.covSign 6 from congrArg _ (Fin.ext (by first | exact c | exact c.2))]
    simp only [Beta_HK40, Beta_HK52, cov_6, sgV, sgM]
    ring
  rw [if_neg c, if_neg c]
  clear c
  by_cases c : all = true ∧ 7 ≤ i.val ∧ i.val ≤ 21
  · rw [if_pos c, if_pos c]
    simp only [Beta_HK28, Beta_HK32, Beta_HK33, Beta_HK34, Beta_HK35, Beta_HK36, Beta_HK37, Beta_HK52, cov_0, cov_1, cov_2, cov_3, cov_4, cov_5, cov_6, cov_22, cov_23, sgV, sgM]
    ring
  rw [if_neg c, if_neg c]
  clear c
  by_cases c : i.val = 22
  · rw [if_pos c, if_pos c]
    rw [show Spec.covSign i = Spec.covSign 22 from congrArg _ (Fin.ext (by first | exact c | exact c.2))]
    simp only [Beta_HK45, Beta_HK52, cov_22, sgV, sgM]
    ring
  rw [if_neg c, if_neg c]
  clear c
  by_cases c : i.val = 23
  · rw [if_pos c, if_pos c]
    rw [show Spec.covSign i = Spec.covSign 23 from congrArg _ (Fin.ext (by first | exact c | exact c.2))]
    simp only [Beta_HK42, Beta_HK52, cov_23, sgV, sgM]
    ring
  rw [if_neg c, if_neg c]
  clear c
  ring
theorem DragX_HK0 : DragX.HK0 (sgM Spec.covSign P) (sgV Spec.covSign s) R a b = DragX.HK0 P s R a b := by
  simp only [DragX.HK0, cov_4, cov_22, sgV, sgM]
  try ring
theorem DragX_HK1 : DragX.HK1 (sgM Spec.covSign P) (sgV Spec.covSign s) R a b = DragX.HK1 P s R a b := by
  simp only [DragX.HK1, cov_5, cov_23, sgV, sgM]
  try ring
theorem DragX_HK2 : DragX.HK2 (sgM Spec.covSign P) (sgV Spec.covSign s) R a b = -DragX.HK2 P s R a b := by
  simp only [DragX.HK2, DragX_HK0, DragX_HK1, cov_0, cov_2, cov_3, cov_6, sgV, sgM]
  try ring
theorem DragX_HK3 : DragX.HK3 (sgM Spec.covSign P) (sgV Spec.covSign s) R a b = DragX.HK3 P s R a b := by
  simp only [DragX.HK3, sgV, sgM]
  try ring
theorem DragX_HK4 : DragX.HK4 (sgM Spec.covSign P) (sgV Spec.covSign s) R a b = -DragX.HK4 P s R a b := by
  simp only [DragX.HK4, DragX_HK0, DragX_HK1, cov_1, cov_2, cov_3, cov_6, sgV, sgM]
  try ring
theorem DragX_HK5 : DragX.HK5 (sgM Spec.covSign P) (sgV Spec.covSign s) R a b = -DragX.HK5 P s R a b := by
  simp only [DragX.HK5, DragX_HK0, DragX_HK1, cov_0, cov_1, cov_2, cov_6, sgV, sgM]
  try ring
theorem DragX_HK6 : DragX.HK6 (sgM Spec.covSign P) (sgV Spec.covSign s) R a b = -DragX.HK6 P s R a b := by
  simp only [DragX.HK6, DragX_HK0, DragX_HK1, cov_0, cov_1, cov_3, cov_6, sgV, sgM]
  try ring
theorem DragX_HK7 : DragX.HK7 (sgM Spec.covSign P) (sgV Spec.covSign s) R a b = DragX.HK7 P s R a b := by
  simp only [DragX.HK7, cov_0, cov_1, cov_2, cov_3, sgV, sgM]
  try ring
theorem DragX_HK8 : DragX.HK8 (sgM Spec.covSign P) (sgV Spec.covSign s) R a b = DragX.HK8 P s R a b := by
  simp only [DragX.HK8, DragX_HK7, sgV, sgM]
  try ring
theorem DragX_HK9 : DragX.HK9 (sgM Spec.covSign P) (sgV Spec.covSign s) R a b = DragX.HK9 P s R a b := by
  simp only [DragX.HK9, cov_0, cov_1, cov_2, cov_3, sgV, sgM]
  try ring
theorem DragX_HK10 : DragX.HK10 (sgM Spec.covSign P) (sgV Spec.covSign s) R a b = DragX.HK10 P s R a b := by
  simp only [DragX.HK10, DragX_HK3, DragX_HK9, sgV, sgM]
  try ring
theorem DragX_HK11 : DragX.HK11 (sgM Spec.covSign P) (sgV Spec.covSign s) R a b = DragX.HK11 P s R a b := by
  simp only [DragX.HK11, cov_0, cov_1, cov_2, cov_3, sgV, sgM]
  try ring
theorem DragX_HK12 : DragX.HK12 (sgM Spec.covSign P) (sgV Spec.covSign s) R a b = DragX.HK12 P s R a b := by
  simp only [DragX.HK12, DragX_HK9, sgV, sgM]
  try ring
theorem DragX_HK13 : DragX.HK13 (sgM Spec.covSign P) (sgV Spec.covSign s) R a b = DragX.HK13 P s R a b := by
  simp only [DragX.HK13, DragX_HK11, sgV, sgM]
  try ring
theorem DragX_HK14 : DragX.HK14 (sgM Spec.covSign P) (sgV Spec.covSign s) R a b = -DragX.HK14 P s R a b := by
  simp only [DragX.HK14, DragX_HK4, sgV, sgM]
  try ring
theorem DragX_HK15 : DragX.HK15 (sgM Spec.covSign P) (sgV Spec.covSign s) R a b = -DragX.HK15 P s R a b := by
  simp only [DragX.HK15, DragX_HK2, sgV, sgM]
  try ring
theorem DragX_HK16 : DragX.HK16 (sgM Spec.covSign P) (sgV Spec.covSign s) R a b = -DragX.HK16 P s R a b := by
  simp only [DragX.HK16, DragX_HK5, sgV, sgM]
  try ring
theorem DragX_HK17 : DragX.HK17 (sgM Spec.covSign P) (sgV Spec.covSign s) R a b = -DragX.HK17 P s R a b := by
  simp only [DragX.HK17, DragX_HK6, sgV, sgM]
  try ring
theorem DragX_HK18 : DragX.HK18 (sgM Spec.covSign P) (sgV Spec.covSign s) R a b = -DragX.HK18 P s R a b := by
  simp only [DragX.HK18, DragX_HK7, DragX_HK12, DragX_HK13, DragX_HK14, DragX_HK15, DragX_HK16, DragX_HK17, cov_0, cov_1, cov_2, cov_3, cov_4, cov_5, cov_6, cov_22, cov_23, sgV, sgM]
  try ring
theorem DragX_HK19 : DragX.HK19 (sgM Spec.covSign P) (sgV Spec.covSign s) R a b = DragX.HK19 P s R a b := by
  simp only [DragX.HK19, DragX_HK12, cov_5, cov_23, sgV, sgM]
  try ring
theorem DragX_HK20 : DragX.HK20 (sgM Spec.covSign P) (sgV Spec.covSign s) R a b = DragX.HK20 P s R a b := by
  simp only [DragX.HK20, DragX_HK7, DragX_HK12, DragX_HK13, DragX_HK14, DragX_HK15, DragX_HK16, DragX_HK17, DragX_HK19, cov_0, cov_1, cov_2, cov_3, cov_4, cov_6, cov_22, cov_23, sgV, sgM]
  try ring
theorem DragX_HK21 : DragX.HK21 (sgM Spec.covSign P) (sgV Spec.covSign s) R a b = DragX.HK21 P s R a b := by
  simp only [DragX.HK21, sgV, sgM]
  try ring
theorem DragX_HK22 : DragX.HK22 (sgM Spec.covSign P) (sgV Spec.covSign s) R a b = DragX.HK22 P s R a b := by
  simp only [DragX.HK22, DragX_HK12, DragX_HK21, sgV, sgM]
  try ring
theorem DragX_HK23 : DragX.HK23 (sgM Spec.covSign P) (sgV Spec.covSign s) R a b = DragX.HK23 P s R a b := by
  simp only [DragX.HK23, DragX_HK7, DragX_HK12, DragX_HK13, DragX_HK14, DragX_HK15, DragX_HK16, DragX_HK17, DragX_HK19, cov_0, cov_1, cov_2, cov_3, cov_4, cov_5, cov_6, cov_22, sgV, sgM]
  try ring
theorem DragX_HK24 : DragX.HK24 (sgM Spec.covSign P) (sgV Spec.covSign s) R a b = DragX.HK24 P s R a b := by
  simp only [DragX.HK24, DragX_HK7, DragX_HK12, DragX_HK13, DragX_HK14, DragX_HK15, DragX_HK16, DragX_HK17, cov_0, cov_1, cov_2, cov_3, cov_4, cov_5, cov_6, cov_22, cov_23, sgV, sgM]
  try ring
theorem DragX_HK25 : DragX.HK25 (sgM Spec.covSign P) (sgV Spec.covSign s) R a b = DragX.HK25 P s R a b := by
  simp only [DragX.HK25, DragX_HK7, cov_4, cov_22, sgV, sgM]
  try ring
theorem DragX_HK26 : DragX.HK26 (sgM Spec.covSign P) (sgV Spec.covSign s) R a b = DragX.HK26 P s R a b := by
  simp only [DragX.HK26, DragX_HK7, DragX_HK12, DragX_HK13, DragX_HK14, DragX_HK15, DragX_HK16, DragX_HK17, DragX_HK25, cov_0, cov_1, cov_2, cov_3, cov_4, cov_5, cov_6, cov_23, sgV, sgM]
  try ring
theorem DragX_HK27 : DragX.HK27 (sgM Spec.covSign P) (sgV Spec.covSign s) R a b = DragX.HK27 P s R a b := by
  simp only [DragX.HK27, DragX_HK7, DragX_HK21, sgV, sgM]
  try ring
theorem DragX_HK28 : DragX.HK28 (sgM Spec.covSign P) (sgV Spec.covSign s) R a b = DragX.HK28 P s R a b := by
  simp only [DragX.HK28, DragX_HK7, DragX_HK12, DragX_HK13, DragX_HK14, DragX_HK15, DragX_HK16, DragX_HK17, DragX_HK25, cov_0, cov_1, cov_2, cov_3, cov_5, cov_6, cov_22, cov_23, sgV, sgM]
  try ring
theorem DragX_HK29 : DragX.HK29 (sgM Spec.covSign P) (sgV Spec.covSign s) R a b = -DragX.HK29 P s R a b := by
  simp only [DragX.HK29, DragX_HK7, DragX_HK12, DragX_HK13, DragX_HK14, DragX_HK15, DragX_HK16, DragX_HK17, cov_0, cov_1, cov_2, cov_3, cov_4, cov_5, cov_6, cov_22, cov_23, sgV, sgM]
  try ring
theorem DragX_HK30 : DragX.HK30 (sgM Spec.covSign P) (sgV Spec.covSign s) R a b = -DragX.HK30 P s R a b := by
  simp only [DragX.HK30, DragX_HK7, DragX_HK12, DragX_HK13, DragX_HK14, DragX_HK15, DragX_HK16, DragX_HK17, cov_0, cov_1, cov_2, cov_3, cov_4, cov_5, cov_6, cov_22, cov_23, sgV, sgM]
  try ring
theorem DragX_HK31 : DragX.HK31 (sgM Spec.covSign P) (sgV Spec.covSign s) R a b = -DragX.HK31 P s R a b := by
  simp only [DragX.HK31, DragX_HK7, DragX_HK12, DragX_HK13, DragX_HK14, DragX_HK15, DragX_HK16, DragX_HK17, cov_0, cov_1, cov_2, cov_3, cov_4, cov_5, cov_6, cov_22, cov_23, sgV, sgM]
  try ring
theorem DragX_S : DragX.S (sgM Spec.covSign P) (sgV Spec.covSign s) R a b = DragX.S P s R a b := by
  simp only [DragX.S, DragX_HK13, DragX_HK14, DragX_HK15, DragX_HK16, DragX_HK17, DragX_HK18, DragX_HK20, DragX_HK21, DragX_HK22, DragX_HK23, DragX_HK24, DragX_HK26, DragX_HK27, DragX_HK28, DragX_HK29, DragX_HK30, DragX_HK31, sgV, sgM]
  try ring
theorem DragX_HK32 : DragX.HK32 (sgM Spec.covSign P) (sgV Spec.covSign s) R a b = DragX.HK32 P s R a b := by
  simp only [DragX.HK32, DragX_S, sgV, sgM]
  try ring
theorem DragX_hList : DragX.hList (sgM Spec.covSign P) (sgV Spec.covSign s) R a b = (DragX.hList P s R a b).map fun p => (p.1, (1 : ℝ) * (Spec.covSign p.1 * p.2)) := by
  simp only [DragX.hList, List.map_cons, List.map_nil, DragX_HK2, DragX_HK3, DragX_HK4, DragX_HK5, DragX_HK6, DragX_HK8, DragX_HK10, DragX_HK11, cov_0, cov_1, cov_2, cov_3, cov_4, cov_5, cov_6, cov_22, cov_23, sgV, sgM, List.cons.injEq, Prod.mk.injEq, true_and, and_true]
  refine ⟨by ring, by ring, by ring, by ring, by ring, by ring, by ring, by ring, by ring⟩
theorem DragX_gain : DragX.gain (sgM Spec.covSign P) (sgV Spec.covSign s) R a b = fun i => (1 : ℝ) * (Spec.covSign i * DragX.gain P s R a b i) := by
  funext i
  unfold DragX.gain
  by_cases c : i.val = 22
  · rw [if_pos c, if_pos c]
    rw [show Spec.covSign i = Spec.covSign 22 from congrArg _ (Fin.ext (by first | exact c | exact c.2))]
    simp only [DragX_HK28, DragX_HK32, cov_22, sgV, sgM]
    ring
  rw [if_neg c, if_neg c]
  clear c
  by_cases c : i.val = 23
  · rw [if_pos c, if_pos c]
    rw [show Spec.covSign i = Spec.covSign 23 from congrArg _ (Fin.ext (by first | exact c | exact c.2))]
    simp only [DragX_HK20, DragX_HK32, cov_23, sgV, sgM]
    ring
  rw [if_neg c, if_neg c]
  clear c
  ring
theorem DragY_HK0 : DragY.HK0 (sgM Spec.covSign P) (sgV Spec.covSign s) R a b = DragY.HK0 P s R a b := by
  simp only [DragY.HK0, cov_5, cov_23, sgV, sgM]
  try ring
theorem DragY_HK1 : DragY.HK1 (sgM Spec.covSign P) (sgV Spec.covSign s) R a b = DragY.HK1 P s R a b := by
  simp only [DragY.HK1, cov_4, cov_22, sgV, sgM]
  try ring
theorem DragY_HK2 : DragY.HK2 (sgM Spec.covSign P) (sgV Spec.covSign s) R a b = -DragY.HK2 P s R a b := by
  simp only [DragY.HK2, DragY_HK0, DragY_HK1, cov_0, cov_1, cov_3, cov_6, sgV, sgM]
  try ring
theorem DragY_HK3 : DragY.HK3 (sgM Spec.covSign P) (sgV Spec.covSign s) R a b = DragY.HK3 P s R a b := by
  simp only [DragY.HK3, sgV, sgM]
  try ring
theorem DragY_HK4 : DragY.HK4 (sgM Spec.covSign P) (sgV Spec.covSign s) R a b = -DragY.HK4 P s R a b := by
  simp only [DragY.HK4, DragY_HK0, DragY_HK1, cov_0, cov_1, cov_2, cov_6, sgV, sgM]
  try ring
theorem DragY_HK5 : DragY.HK5 (sgM Spec.covSign P) (sgV Spec.covSign s) R a b = -DragY.HK5 P s R a b := by
  simp only [DragY.HK5, DragY_HK0, DragY_HK1, cov_1, cov_2, cov_3, cov_6, sgV, sgM]
  try ring
theorem DragY_HK6 : DragY.HK6 (sgM Spec.covSign P) (sgV Spec.covSign s) R a b = -DragY.HK6 P s R a b := by
  simp only [DragY.HK6, DragY_HK0, DragY_HK1, cov_0, cov_2, cov_3, cov_6, sgV, sgM]
  try ring
theorem DragY_HK7 : DragY.HK7 (sgM Spec.covSign P) (sgV Spec.covSign s) R a b = DragY.HK7 P s R a b := by
  simp only [DragY.HK7, cov_0, cov_1, cov_2, cov_3, sgV, sgM]
  try ring
theorem DragY_HK8 : DragY.HK8 (sgM Spec.covSign P) (sgV Spec.covSign s) R a b = DragY.HK8 P s R a b := by
  simp only [DragY.HK8, DragY_HK3, DragY_HK7, sgV, sgM]
  try ring
theorem DragY_HK9 : DragY.HK9 (sgM Spec.covSign P) (sgV Spec.covSign s) R a b = DragY.HK9 P s R a b := by
  simp only [DragY.HK9, cov_0, cov_1, cov_2, cov_3, sgV, sgM]
  try ring
theorem DragY_HK10 : DragY.HK10 (sgM Spec.covSign P) (sgV Spec.covSign s) R a b = DragY.HK10 P s R a b := by
  simp only [DragY.HK10, DragY_HK9, sgV, sgM]
  try ring
theorem DragY_HK11 : DragY.HK11 (sgM Spec.covSign P) (sgV Spec.covSign s) R a b = DragY.HK11 P s R a b := by
  simp only [DragY.HK11, cov_0, cov_1, cov_2, cov_3, sgV, sgM]
  try ring
theorem DragY_HK12 : DragY.HK12 (sgM Spec.covSign P) (sgV Spec.covSign s) R a b = DragY.HK12 P s R a b := by
  simp only [DragY.HK12, DragY_HK11, sgV, sgM]
  try ring
theorem DragY_HK13 : DragY.HK13 (sgM Spec.covSign P) (sgV Spec.covSign s) R a b = DragY.HK13 P s R a b := by
  simp only [DragY.HK13, DragY_HK7, sgV, sgM]
  try ring
theorem DragY_HK14 : DragY.HK14 (sgM Spec.covSign P) (sgV Spec.covSign s) R a b = -DragY.HK14 P s R a b := by
  simp only [DragY.HK14, DragY_HK5, sgV, sgM]
  try ring
theorem DragY_HK15 : DragY.HK15 (sgM Spec.covSign P) (sgV Spec.covSign s) R a b = -DragY.HK15 P s R a b := by
  simp only [DragY.HK15, DragY_HK2, sgV, sgM]
  try ring
theorem DragY_HK16 : DragY.HK16 (sgM Spec.covSign P) (sgV Spec.covSign s) R a b = -DragY.HK16 P s R a b := by
  simp only [DragY.HK16, DragY_HK4, sgV, sgM]
  try ring
theorem DragY_HK17 : DragY.HK17 (sgM Spec.covSign P) (sgV Spec.covSign s) R a b = -DragY.HK17 P s R a b := by
  simp only [DragY.HK17, DragY_HK6, sgV, sgM]
  try ring
theorem DragY_HK18 : DragY.HK18 (sgM Spec.covSign P) (sgV Spec.covSign s) R a b = -DragY.HK18 P s R a b := by
  simp only [DragY.HK18, DragY_HK9, DragY_HK12, DragY_HK13, DragY_HK14, DragY_HK15, DragY_HK16, DragY_HK17, cov_0, cov_1, cov_2, cov_3, cov_4, cov_5, cov_6, cov_22, cov_23, sgV, sgM]
  try ring
theorem DragY_HK19 : DragY.HK19 (sgM Spec.covSign P) (sgV Spec.covSign s) R a b = DragY.HK19 P s R a b := by
  simp only [DragY.HK19, sgV, sgM]
  try ring
theorem DragY_HK20 : DragY.HK20 (sgM Spec.covSign P) (sgV Spec.covSign s) R a b = DragY.HK20 P s R a b := by
  simp only [DragY.HK20, DragY_HK9, DragY_HK12, DragY_HK13, DragY_HK14, DragY_HK15, DragY_HK16, DragY_HK17, cov_0, cov_1, cov_2, cov_3, cov_4, cov_5, cov_6, cov_22, cov_23, sgV, sgM]
  try ring
theorem DragY_HK21 : DragY.HK21 (sgM Spec.covSign P) (sgV Spec.covSign s) R a b = DragY.HK21 P s R a b := by
  simp only [DragY.HK21, DragY_HK13, cov_4, cov_22, sgV, sgM]
  try ring
theorem DragY_HK22 : DragY.HK22 (sgM Spec.covSign P) (sgV Spec.covSign s) R a b = DragY.HK22 P s R a b := by
  simp only [DragY.HK22, DragY_HK9, DragY_HK12, DragY_HK13, DragY_HK14, DragY_HK15, DragY_HK16, DragY_HK17, DragY_HK21, cov_0, cov_1, cov_2, cov_3, cov_5, cov_6, cov_22, cov_23, sgV, sgM]
  try ring
theorem DragY_HK23 : DragY.HK23 (sgM Spec.covSign P) (sgV Spec.covSign s) R a b = DragY.HK23 P s R a b := by
  simp only [DragY.HK23, DragY_HK13, DragY_HK19, sgV, sgM]
  try ring
theorem DragY_HK24 : DragY.HK24 (sgM Spec.covSign P) (sgV Spec.covSign s) R a b = DragY.HK24 P s R a b := by
  simp only [DragY.HK24, DragY_HK9, DragY_HK12, DragY_HK13, DragY_HK14, DragY_HK15, DragY_HK16, DragY_HK17, DragY_HK21, cov_0, cov_1, cov_2, cov_3, cov_4, cov_5, cov_6, cov_23, sgV, sgM]
  try ring
theorem DragY_HK25 : DragY.HK25 (sgM Spec.covSign P) (sgV Spec.covSign s) R a b = DragY.HK25 P s R a b := by
  simp only [DragY.HK25, DragY_HK9, cov_5, cov_23, sgV, sgM]
  try ring
theorem DragY_HK26 : DragY.HK26 (sgM Spec.covSign P) (sgV Spec.covSign s) R a b = DragY.HK26 P s R a b := by
  simp only [DragY.HK26, DragY_HK9, DragY_HK12, DragY_HK13, DragY_HK14, DragY_HK15, DragY_HK16, DragY_HK17, DragY_HK25, cov_0, cov_1, cov_2, cov_3, cov_4, cov_5, cov_6, cov_22, sgV, sgM]
  try ring
theorem DragY_HK27 : DragY.HK27 (sgM Spec.covSign P) (sgV Spec.covSign s) R a b = DragY.HK27 P s R a b := by
  simp only [DragY.HK27, DragY_HK9, DragY_HK19, sgV, sgM]
  try ring
theorem DragY_HK28 : DragY.HK28 (sgM Spec.covSign P) (sgV Spec.covSign s) R a b = DragY.HK28 P s R a b := by
  simp only [DragY.HK28, DragY_HK9, DragY_HK12, DragY_HK13, DragY_HK14, DragY_HK15, DragY_HK16, DragY_HK17, DragY_HK25, cov_0, cov_1, cov_2, cov_3, cov_4, cov_6, cov_22, cov_23, sgV, sgM]
  try ring
theorem DragY_HK29 : DragY.HK29 (sgM Spec.covSign P) (sgV Spec.covSign s) R a b = -DragY.HK29 P s R a b := by
  simp only [DragY.HK29, DragY_HK9, DragY_HK12, DragY_HK13, DragY_HK14, DragY_HK15, DragY_HK16, DragY_HK17, cov_0, cov_1, cov_2, cov_3, cov_4, cov_5, cov_6, cov_22, cov_23, sgV, sgM]
  try ring
theorem DragY_HK30 : DragY.HK30 (sgM Spec.covSign P) (sgV Spec.covSign s) R a b = -DragY.HK30 P s R a b := by
  simp only [DragY.HK30, DragY_HK9, DragY_HK12, DragY_HK13, DragY_HK14, DragY_HK15, DragY_HK16, DragY_HK17, cov_0, cov_1, cov_2, cov_3, cov_4, cov_5, cov_6, cov_22, cov_23, sgV, sgM]
  try ring
theorem DragY_HK31 : DragY.HK31 (sgM Spec.covSign P) (sgV Spec.covSign s) R a b = -DragY.HK31 P s R a b := by
  simp only [DragY.HK31, DragY_HK9, DragY_HK12, DragY_HK13, DragY_HK14, DragY_HK15, DragY_HK16, DragY_HK17, cov_0, cov_1, cov_2, cov_3, cov_4, cov_5, cov_6, cov_22, cov_23, sgV, sgM]
  try ring
theorem DragY_S : DragY.S (sgM Spec.covSign P) (sgV Spec.covSign s) R a b = DragY.S P s R a b := by
  simp only [DragY.S, DragY_HK12, DragY_HK14, DragY_HK15, DragY_HK16, DragY_HK17, DragY_HK18, DragY_HK19, DragY_HK20, DragY_HK22, DragY_HK23, DragY_HK24, DragY_HK26, DragY_HK27, DragY_HK28, DragY_HK29, DragY_HK30, DragY_HK31, sgV, sgM]
  try ring
theorem DragY_HK32 : DragY.HK32 (sgM Spec.covSign P) (sgV Spec.covSign s) R a b = DragY.HK32 P s R a b := by
  simp only [DragY.HK32, DragY_S, sgV, sgM]
  try ring
theorem DragY_hList : DragY.hList (sgM Spec.covSign P) (sgV Spec.covSign s) R a b = (DragY.hList P s R a b).map fun p => (p.1, (1 : ℝ) * (Spec.covSign p.1 * p.2)) := by
  simp only [DragY.hList, List.map_cons, List.map_nil, DragY_HK2, DragY_HK3, DragY_HK4, DragY_HK5, DragY_HK6, DragY_HK8, DragY_HK10, DragY_HK11, cov_0, cov_1, cov_2, cov_3, cov_4, cov_5, cov_6, cov_22, cov_23, sgV, sgM, List.cons.injEq, Prod.mk.injEq, true_and, and_true]
  refine ⟨by ring, by ring, by ring, by ring, by ring, by ring, by ring, by ring, by ring⟩
theorem DragY_gain : DragY.gain (sgM Spec.covSign P) (sgV Spec.covSign s) R a b = fun i => (1 : ℝ) * (Spec.covSign i * DragY.gain P s R a b i) := by
  funext i
  unfold DragY.gain
  by_cases c : i.val = 22
  · rw [if_pos c, if_pos c]
    rw [show Spec.covSign i = Spec.covSign 22 from congrArg _ (Fin.ext (by first | exact c | exact c.2))]
    simp only [DragY_HK22, DragY_HK32, cov_22, sgV, sgM]
    ring
  rw [if_neg c, if_neg c]
  clear c
  by_cases c : i.val = 23
  · rw [if_pos c, if_pos c]
    rw [show Spec.covSign i = Spec.covSign 23 from congrArg _ (Fin.ext (by first | exact c | exact c.2))]
    simp only [DragY_HK28, DragY_HK32, cov_23, sgV, sgM]
    ring
  rw [if_neg c, if_neg c]
  clear c
  ring
theorem FlowX_HK0 : FlowX.HK0 (sgM Spec.covSign P) (sgV Spec.covSign s) R a b = -FlowX.HK0 P s R a b := by
  simp only [FlowX.HK0, cov_0, cov_1, cov_2, sgV, sgM]
  try ring
theorem FlowX_HK1 : FlowX.HK1 (sgM Spec.covSign P) (sgV Spec.covSign s) R a b = -FlowX.HK1 P s R a b := by
  simp only [FlowX.HK1, cov_0, cov_1, cov_3, sgV, sgM]
  try ring
theorem FlowX_HK2 : FlowX.HK2 (sgM Spec.covSign P) (sgV Spec.covSign s) R a b = -FlowX.HK2 P s R a b := by
  simp only [FlowX.HK2, cov_0, cov_2, cov_3, sgV, sgM]
  try ring
theorem FlowX_HK3 : FlowX.HK3 (sgM Spec.covSign P) (sgV Spec.covSign s) R a b = -FlowX.HK3 P s R a b := by
  simp only [FlowX.HK3, FlowX_HK0, FlowX_HK1, FlowX_HK2, cov_4, cov_5, cov_6, sgV, sgM]
  try ring
theorem FlowX_HK4 : FlowX.HK4 (sgM Spec.covSign P) (sgV Spec.covSign s) R a b = FlowX.HK4 P s R a b := by
  simp only [FlowX.HK4, sgV, sgM]
  try ring
theorem FlowX_HK5 : FlowX.HK5 (sgM Spec.covSign P) (sgV Spec.covSign s) R a b = FlowX.HK5 P s R a b := by
  simp only [FlowX.HK5, FlowX_HK4, sgV, sgM]
  try ring
theorem FlowX_HK6 : FlowX.HK6 (sgM Spec.covSign P) (sgV Spec.covSign s) R a b = -FlowX.HK6 P s R a b := by
  simp only [FlowX.HK6, cov_1, cov_2, cov_3, sgV, sgM]
  try ring
theorem FlowX_HK7 : FlowX.HK7 (sgM Spec.covSign P) (sgV Spec.covSign s) R a b = -FlowX.HK7 P s R a b := by
  simp only [FlowX.HK7, FlowX_HK0, FlowX_HK1, FlowX_HK6, cov_4, cov_5, cov_6, sgV, sgM]
  try ring
theorem FlowX_HK8 : FlowX.HK8 (sgM Spec.covSign P) (sgV Spec.covSign s) R a b = -FlowX.HK8 P s R a b := by
  simp only [FlowX.HK8, FlowX_HK0, FlowX_HK2, FlowX_HK6, cov_4, cov_5, cov_6, sgV, sgM]
  try ring
theorem FlowX_HK9 : FlowX.HK9 (sgM Spec.covSign P) (sgV Spec.covSign s) R a b = -FlowX.HK9 P s R a b := by
  simp only [FlowX.HK9, FlowX_HK1, FlowX_HK2, FlowX_HK6, cov_4, cov_5, cov_6, sgV, sgM]
  try ring
theorem FlowX_HK10 : FlowX.HK10 (sgM Spec.covSign P) (sgV Spec.covSign s) R a b = FlowX.HK10 P s R a b := by
  simp only [FlowX.HK10, cov_0, cov_2, sgV, sgM]
  try ring
theorem FlowX_HK11 : FlowX.HK11 (sgM Spec.covSign P) (sgV Spec.covSign s) R a b = FlowX.HK11 P s R a b := by
  simp only [FlowX.HK11, cov_1, cov_3, sgV, sgM]
  try ring
theorem FlowX_HK12 : FlowX.HK12 (sgM Spec.covSign P) (sgV Spec.covSign s) R a b = FlowX.HK12 P s R a b := by
  simp only [FlowX.HK12, FlowX_HK10, FlowX_HK11, sgV, sgM]
  try ring
theorem FlowX_HK13_z : FlowX.HK13 P s R a b = 0 := by
  simp only [FlowX.HK13]
  try ring
theorem FlowX_HK13 : FlowX.HK13 (sgM Spec.covSign P) (sgV Spec.covSign s) R a b = FlowX.HK13 P s R a b := by
  simp only [FlowX.HK13, sgV, sgM]
  try ring
theorem FlowX_HK14 : FlowX.HK14 (sgM Spec.covSign P) (sgV Spec.covSign s) R a b = FlowX.HK14 P s R a b := by
  simp only [FlowX.HK14, cov_0, cov_3, sgV, sgM]
  try ring
theorem FlowX_HK15 : FlowX.HK15 (sgM Spec.covSign P) (sgV Spec.covSign s) R a b = FlowX.HK15 P s R a b := by
  simp only [FlowX.HK15, cov_1, cov_2, sgV, sgM]
  try ring
theorem FlowX_HK16 : FlowX.HK16 (sgM Spec.covSign P) (sgV Spec.covSign s) R a b = FlowX.HK16 P s R a b := by
  simp only [FlowX.HK16, FlowX_HK14, FlowX_HK15, sgV, sgM]
  try ring
theorem FlowX_HK17 : FlowX.HK17 (sgM Spec.covSign P) (sgV Spec.covSign s) R a b = FlowX.HK17 P s R a b := by
  simp only [FlowX.HK17, sgV, sgM]
  try ring
theorem FlowX_HK18 : FlowX.HK18 (sgM Spec.covSign P) (sgV Spec.covSign s) R a b = FlowX.HK18 P s R a b := by
  simp only [FlowX.HK18, cov_1, sgV, sgM]
  try ring
theorem FlowX_HK19 : FlowX.HK19 (sgM Spec.covSign P) (sgV Spec.covSign s) R a b = FlowX.HK19 P s R a b := by
  simp only [FlowX.HK19, cov_2, sgV, sgM]
  try ring
theorem FlowX_HK20 : FlowX.HK20 (sgM Spec.covSign P) (sgV Spec.covSign s) R a b = FlowX.HK20 P s R a b := by
  simp only [FlowX.HK20, FlowX_HK19, sgV, sgM]
  try ring
theorem FlowX_HK21 : FlowX.HK21 (sgM Spec.covSign P) (sgV Spec.covSign s) R a b = FlowX.HK21 P s R a b := by
  simp only [FlowX.HK21, cov_0, sgV, sgM]
  try ring
theorem FlowX_HK22 : FlowX.HK22 (sgM Spec.covSign P) (sgV Spec.covSign s) R a b = FlowX.HK22 P s R a b := by
  simp only [FlowX.HK22, cov_3, sgV, sgM]
  try ring
theorem FlowX_HK23 : FlowX.HK23 (sgM Spec.covSign P) (sgV Spec.covSign s) R a b = FlowX.HK23 P s R a b := by
  simp only [FlowX.HK23, FlowX_HK21, FlowX_HK22, sgV, sgM]
  try ring
theorem FlowX_HK24 : FlowX.HK24 (sgM Spec.covSign P) (sgV Spec.covSign s) R a b = FlowX.HK24 P s R a b := by
  simp only [FlowX.HK24, FlowX_HK18, FlowX_HK20, FlowX_HK23, sgV, sgM]
  try ring
theorem FlowX_HK25 : FlowX.HK25 (sgM Spec.covSign P) (sgV Spec.covSign s) R a b = FlowX.HK25 P s R a b := by
  simp only [FlowX.HK25, FlowX_HK12, FlowX_HK13, FlowX_HK16, FlowX_HK17, FlowX_HK24, FlowX_HK13_z, sgV, sgM]
  try ring
theorem FlowX_HK26 : FlowX.HK26 (sgM Spec.covSign P) (sgV Spec.covSign s) R a b = FlowX.HK26 P s R a b := by
  simp only [FlowX.HK26, FlowX_HK14, FlowX_HK15, sgV, sgM]
  try ring
theorem FlowX_HK27_z : FlowX.HK27 P s R a b = 0 := by
  simp only [FlowX.HK27]
  try ring
theorem FlowX_HK27 : FlowX.HK27 (sgM Spec.covSign P) (sgV Spec.covSign s) R a b = FlowX.HK27 P s R a b := by
  simp only [FlowX.HK27, sgV, sgM]
  try ring
theorem FlowX_HK28 : FlowX.HK28 (sgM Spec.covSign P) (sgV Spec.covSign s) R a b = FlowX.HK28 P s R a b := by
  simp only [FlowX.HK28, cov_0, cov_1, sgV, sgM]
  try ring
theorem FlowX_HK29 : FlowX.HK29 (sgM Spec.covSign P) (sgV Spec.covSign s) R a b = FlowX.HK29 P s R a b := by
  simp only [FlowX.HK29, cov_2, cov_3, sgV, sgM]
  try ring
theorem FlowX_HK30 : FlowX.HK30 (sgM Spec.covSign P) (sgV Spec.covSign s) R a b = FlowX.HK30 P s R a b := by
  simp only [FlowX.HK30, FlowX_HK28, FlowX_HK29, sgV, sgM]
  try ring
theorem FlowX_HK31 : FlowX.HK31 (sgM Spec.covSign P) (sgV Spec.covSign s) R a b = FlowX.HK31 P s R a b := by
  simp only [FlowX.HK31, FlowX_HK18, sgV, sgM]
  try ring
theorem FlowX_HK32 : FlowX.HK32 (sgM Spec.covSign P) (sgV Spec.covSign s) R a b = FlowX.HK32 P s R a b := by
  simp only [FlowX.HK32, FlowX_HK19, FlowX_HK23, FlowX_HK31, sgV, sgM]
  try ring
theorem FlowX_HK33 : FlowX.HK33 (sgM Spec.covSign P) (sgV Spec.covSign s) R a b = FlowX.HK33 P s R a b := by
  simp only [FlowX.HK33, FlowX_HK13, FlowX_HK26, FlowX_HK27, FlowX_HK30, FlowX_HK32, FlowX_HK13_z, FlowX_HK27_z, sgV, sgM]
  try ring
theorem FlowX_HK34 : FlowX.HK34 (sgM Spec.covSign P) (sgV Spec.covSign s) R a b = FlowX.HK34 P s R a b := by
  simp only [FlowX.HK34, FlowX_HK28, FlowX_HK29, sgV, sgM]
  try ring
theorem FlowX_HK35 : FlowX.HK35 (sgM Spec.covSign P) (sgV Spec.covSign s) R a b = FlowX.HK35 P s R a b := by
  simp only [FlowX.HK35, FlowX_HK10, FlowX_HK11, sgV, sgM]
  try ring
theorem FlowX_HK36 : FlowX.HK36 (sgM Spec.covSign P) (sgV Spec.covSign s) R a b = FlowX.HK36 P s R a b := by
  simp only [FlowX.HK36, FlowX_HK20, FlowX_HK21, FlowX_HK22, FlowX_HK31, sgV, sgM]
  try ring
theorem FlowX_HK37 : FlowX.HK37 (sgM Spec.covSign P) (sgV Spec.covSign s) R a b = FlowX.HK37 P s R a b := by
  simp only [FlowX.HK37, FlowX_HK17, FlowX_HK27, FlowX_HK34, FlowX_HK35, FlowX_HK36, FlowX_HK27_z, sgV, sgM]
  try ring
theorem FlowX_HK38 : FlowX.HK38 (sgM Spec.covSign P) (sgV Spec.covSign s) R a b = -FlowX.HK38 P s R a b := by
  simp only [FlowX.HK38, FlowX_HK3, sgV, sgM]
  try ring
theorem FlowX_HK39 : FlowX.HK39 (sgM Spec.covSign P) (sgV Spec.covSign s) R a b = -FlowX.HK39 P s R a b := by
  simp only [FlowX.HK39, FlowX_HK7, sgV, sgM]
  try ring
theorem FlowX_HK40 : FlowX.HK40 (sgM Spec.covSign P) (sgV Spec.covSign s) R a b = -FlowX.HK40 P s R a b := by
  simp only [FlowX.HK40, FlowX_HK8, sgV, sgM]
  try ring
theorem FlowX_HK41 : FlowX.HK41 (sgM Spec.covSign P) (sgV Spec.covSign s) R a b = -FlowX.HK41 P s R a b := by
  simp only [FlowX.HK41, FlowX_HK9, sgV, sgM]
  try ring
theorem FlowX_HK42 : FlowX.HK42 (sgM Spec.covSign P) (sgV Spec.covSign s) R a b = -FlowX.HK42 P s R a b := by
  simp only [FlowX.HK42, FlowX_HK25, FlowX_HK33, FlowX_HK37, FlowX_HK38, FlowX_HK39, FlowX_HK40, FlowX_HK41, cov_0, cov_1, cov_2, cov_3, cov_4, cov_5, cov_6, sgV, sgM]
  try ring
theorem FlowX_HK43 : FlowX.HK43 (sgM Spec.covSign P) (sgV Spec.covSign s) R a b = FlowX.HK43 P s R a b := by
  simp only [FlowX.HK43, sgV, sgM]
  try ring
theorem FlowX_HK44 : FlowX.HK44 (sgM Spec.covSign P) (sgV Spec.covSign s) R a b = FlowX.HK44 P s R a b := by
  simp only [FlowX.HK44, FlowX_HK25, FlowX_HK33, FlowX_HK37, FlowX_HK38, FlowX_HK39, FlowX_HK40, FlowX_HK41, cov_0, cov_1, cov_2, cov_3, cov_4, cov_5, cov_6, sgV, sgM]
  try ring
theorem FlowX_HK45 : FlowX.HK45 (sgM Spec.covSign P) (sgV Spec.covSign s) R a b = FlowX.HK45 P s R a b := by
  simp only [FlowX.HK45, FlowX_HK25, FlowX_HK33, FlowX_HK37, FlowX_HK38, FlowX_HK39, FlowX_HK40, FlowX_HK41, cov_0, cov_1, cov_2, cov_3, cov_4, cov_5, cov_6, sgV, sgM]
  try ring
theorem FlowX_HK46 : FlowX.HK46 (sgM Spec.covSign P) (sgV Spec.covSign s) R a b = FlowX.HK46 P s R a b := by
  simp only [FlowX.HK46, FlowX_HK25, FlowX_HK33, FlowX_HK37, FlowX_HK38, FlowX_HK39, FlowX_HK40, FlowX_HK41, cov_0, cov_1, cov_2, cov_3, cov_4, cov_5, cov_6, sgV, sgM]
  try ring
theorem FlowX_HK47 : FlowX.HK47 (sgM Spec.covSign P) (sgV Spec.covSign s) R a b = -FlowX.HK47 P s R a b := by
  simp only [FlowX.HK47, FlowX_HK25, FlowX_HK33, FlowX_HK37, FlowX_HK38, FlowX_HK39, FlowX_HK40, FlowX_HK41, cov_0, cov_1, cov_2, cov_3, cov_4, cov_5, cov_6, sgV, sgM]
  try ring
theorem FlowX_HK48 : FlowX.HK48 (sgM Spec.covSign P) (sgV Spec.covSign s) R a b = -FlowX.HK48 P s R a b := by
  simp only [FlowX.HK48, FlowX_HK25, FlowX_HK33, FlowX_HK37, FlowX_HK38, FlowX_HK39, FlowX_HK40, FlowX_HK41, cov_0, cov_1, cov_2, cov_3, cov_4, cov_5, cov_6, sgV, sgM]
  try ring
theorem FlowX_HK49 : FlowX.HK49 (sgM Spec.covSign P) (sgV Spec.covSign s) R a b = -FlowX.HK49 P s R a b := by
  simp only [FlowX.HK49, FlowX_HK25, FlowX_HK33, FlowX_HK37, FlowX_HK38, FlowX_HK39, FlowX_HK40, FlowX_HK41, cov_0, cov_1, cov_2, cov_3, cov_4, cov_5, cov_6, sgV, sgM]
  try ring
theorem FlowX_S : FlowX.S (sgM Spec.covSign P) (sgV Spec.covSign s) R a b = FlowX.S P s R a b := by
  simp only [FlowX.S, FlowX_HK25, FlowX_HK33, FlowX_HK37, FlowX_HK38, FlowX_HK39, FlowX_HK40, FlowX_HK41, FlowX_HK42, FlowX_HK43, FlowX_HK44, FlowX_HK45, FlowX_HK46, FlowX_HK47, FlowX_HK48, FlowX_HK49, sgV, sgM]
  try ring
theorem FlowX_HK50 : FlowX.HK50 (sgM Spec.covSign P) (sgV Spec.covSign s) R a b = FlowX.HK50 P s R a b := by
  simp only [FlowX.HK50, FlowX_HK4, FlowX_S, sgV, sgM]
  try ring
theorem FlowX_hList : FlowX.hList (sgM Spec.covSign P) (sgV Spec.covSign s) R a b = (FlowX.hList P s R a b).map fun p => (p.1, (1 : ℝ) * (Spec.covSign p.1 * p.2)) := by
  simp only [FlowX.hList, List.map_cons, List.map_nil, FlowX_HK3, FlowX_HK4, FlowX_HK5, FlowX_HK7, FlowX_HK8, FlowX_HK9, FlowX_HK25, FlowX_HK33, FlowX_HK37, cov_0, cov_1, cov_2, cov_3, cov_4, cov_5, cov_6, sgV, sgM, List.cons.injEq, Prod.mk.injEq, true_and, and_true]
  refine ⟨by ring, by ring, by ring, by ring, by ring, by ring, by ring⟩
theorem FlowX_gain : FlowX.gain (sgM Spec.covSign P) (sgV Spec.covSign s) R a b = fun i => (1 : ℝ) * (Spec.covSign i * FlowX.gain P s R a b i) := by
  funext i
  unfold FlowX.gain
  by_cases c : i.val = 0
  · rw [if_pos c, if_pos c]
    rw [show Spec.covSign i = Spec.covSign 0 from congrArg _ (Fin.ext (by first | exact c | exact c.2))]
    simp only [FlowX_HK42, FlowX_HK50, cov_0, sgV, sgM]
    ring
  rw [if_neg c, if_neg c]
  clear c
  by_cases c : i.val = 1
  · rw [if_pos c, if_pos c]
    rw [show Spec.covSign i = Spec.covSign 1 from congrArg _ (Fin.ext (by first | exact c | exact c.2))]
    simp only [FlowX_HK49, FlowX_HK50, cov_1, sgV, sgM]
    ring
  rw [if_neg c, if_neg c]
  clear c
  by_cases c : i.val = 2
  · rw [if_pos c, if_pos c]
    rw [show Spec.covSign i = Spec.covSign 2 from congrArg _ (Fin.ext (by first | exact c | exact c.2))]
    simp only [FlowX_HK47, FlowX_HK50, cov_2, sgV, sgM]
    ring
  rw [if_neg c, if_neg c]
  clear c
  by_cases c : i.val = 3
  · rw [if_pos c, if_pos c]
    rw [show Spec.covSign i = Spec.covSign 3 from congrArg _ (Fin.ext (by first | exact c | exact c.2))]
    simp only [FlowX_HK48, FlowX_HK50, cov_3, sgV, sgM]
    ring
  rw [if_neg c, if_neg c]
  clear c
  by_cases c : i.val = 4
  · rw [if_pos c, if_pos c]
    rw [show Spec.covSign i = Spec.covSign 4 from congrArg _ (Fin.ext (by first | exact c | exact c.2))]
    simp only [FlowX_HK46, FlowX_HK50, cov_4, sgV, sgM]
    ring
  rw [if_neg c, if_neg c]
  clear c
  by_cases c : i.val = 5
  · rw [if_pos c, if_pos c]
    rw [show Spec.covSign i = Spec.covSign 5 from congrArg _ (Fin.ext (by first | exact c | exact c.2))]
    simp only [FlowX_HK45, FlowX_HK50, cov_5, sgV, sgM]
    ring
  rw [if_neg c, if_neg c]
  clear c
  by_cases c : i.val = 6
  · rw [if_pos c, if_pos c]
    rw [show Spec.covSign i = Spec.covSign 6 from congrArg _ (Fin.ext (by first | exact c | exact c.2))]
    simp only [FlowX_HK44, FlowX_HK50, cov_6, sgV, sgM]
    ring
  rw [if_neg c, if_neg c]
  clear c
  by_cases c : 7 ≤ i.val ∧ i.val ≤ 23
  · rw [if_pos c, if_pos c]
    simp only [FlowX_HK25, FlowX_HK33, FlowX_HK37, FlowX_HK38, FlowX_HK39, FlowX_HK40, FlowX_HK41, FlowX_HK50, cov_0, cov_1, cov_2, cov_3, cov_4, cov_5, cov_6, sgV, sgM]
    ring
  rw [if_neg c, if_neg c]
  clear c
  ring
theorem FlowY_HK0 : FlowY.HK0 (sgM Spec.covSign P) (sgV Spec.covSign s) R a b = -FlowY.HK0 P s R a b := by
  simp only [FlowY.HK0, cov_0, cov_1, cov_2, sgV, sgM]
  try ring
theorem FlowY_HK1 : FlowY.HK1 (sgM Spec.covSign P) (sgV Spec.covSign s) R a b = -FlowY.HK1 P s R a b := by
  simp only [FlowY.HK1, cov_0, cov_1, cov_3, sgV, sgM]
  try ring
theorem FlowY_HK2 : FlowY.HK2 (sgM Spec.covSign P) (sgV Spec.covSign s) R a b = -FlowY.HK2 P s R a b := by
  simp only [FlowY.HK2, cov_0, cov_2, cov_3, sgV, sgM]
  try ring
theorem FlowY_HK3 : FlowY.HK3 (sgM Spec.covSign P) (sgV Spec.covSign s) R a b = -FlowY.HK3 P s R a b := by
  simp only [FlowY.HK3, FlowY_HK0, FlowY_HK1, FlowY_HK2, cov_4, cov_5, cov_6, sgV, sgM]
  try ring
theorem FlowY_HK4 : FlowY.HK4 (sgM Spec.covSign P) (sgV Spec.covSign s) R a b = FlowY.HK4 P s R a b := by
  simp only [FlowY.HK4, sgV, sgM]
  try ring
theorem FlowY_HK5 : FlowY.HK5 (sgM Spec.covSign P) (sgV Spec.covSign s) R a b = FlowY.HK5 P s R a b := by
  simp only [FlowY.HK5, FlowY_HK4, sgV, sgM]
  try ring
theorem FlowY_HK6 : FlowY.HK6 (sgM Spec.covSign P) (sgV Spec.covSign s) R a b = -FlowY.HK6 P s R a b := by
  simp only [FlowY.HK6, cov_1, cov_2, cov_3, sgV, sgM]
  try ring
theorem FlowY_HK7 : FlowY.HK7 (sgM Spec.covSign P) (sgV Spec.covSign s) R a b = -FlowY.HK7 P s R a b := by
  simp only [FlowY.HK7, FlowY_HK0, FlowY_HK1, FlowY_HK6, cov_4, cov_5, cov_6, sgV, sgM]
  try ring
theorem FlowY_HK8 : FlowY.HK8 (sgM Spec.covSign P) (sgV Spec.covSign s) R a b = -FlowY.HK8 P s R a b := by
  simp only [FlowY.HK8, FlowY_HK0, FlowY_HK2, FlowY_HK6, cov_4, cov_5, cov_6, sgV, sgM]
  try ring
theorem FlowY_HK9 : FlowY.HK9 (sgM Spec.covSign P) (sgV Spec.covSign s) R a b = -FlowY.HK9 P s R a b := by
  simp only [FlowY.HK9, FlowY_HK1, FlowY_HK2, FlowY_HK6, cov_4, cov_5, cov_6, sgV, sgM]
  try ring
theorem FlowY_HK10 : FlowY.HK10 (sgM Spec.covSign P) (sgV Spec.covSign s) R a b = FlowY.HK10 P s R a b := by
  simp only [FlowY.HK10, cov_0, cov_2, sgV, sgM]
  try ring
theorem FlowY_HK11 : FlowY.HK11 (sgM Spec.covSign P) (sgV Spec.covSign s) R a b = FlowY.HK11 P s R a b := by
  simp only [FlowY.HK11, cov_1, cov_3, sgV, sgM]
  try ring
theorem FlowY_HK12 : FlowY.HK12 (sgM Spec.covSign P) (sgV Spec.covSign s) R a b = FlowY.HK12 P s R a b := by
  simp only [FlowY.HK12, FlowY_HK10, FlowY_HK11, sgV, sgM]
  try ring
theorem FlowY_HK13_z : FlowY.HK13 P s R a b = 0 := by
  simp only [FlowY.HK13]
  try ring
theorem FlowY_HK13 : FlowY.HK13 (sgM Spec.covSign P) (sgV Spec.covSign s) R a b = FlowY.HK13 P s R a b := by
  simp only [FlowY.HK13, sgV, sgM]
  try ring
theorem FlowY_HK14 : FlowY.HK14 (sgM Spec.covSign P) (sgV Spec.covSign s) R a b = FlowY.HK14 P s R a b := by
  simp only [FlowY.HK14, cov_0, cov_3, sgV, sgM]
  try ring
theorem FlowY_HK15 : FlowY.HK15 (sgM Spec.covSign P) (sgV Spec.covSign s) R a b = FlowY.HK15 P s R a b := by
  simp only [FlowY.HK15, cov_1, cov_2, sgV, sgM]
  try ring
theorem FlowY_HK16 : FlowY.HK16 (sgM Spec.covSign P) (sgV Spec.covSign s) R a b = FlowY.HK16 P s R a b := by
  simp only [FlowY.HK16, FlowY_HK14, FlowY_HK15, sgV, sgM]
  try ring
theorem FlowY_HK17 : FlowY.HK17 (sgM Spec.covSign P) (sgV Spec.covSign s) R a b = FlowY.HK17 P s R a b := by
  simp only [FlowY.HK17, sgV, sgM]
  try ring
theorem FlowY_HK18 : FlowY.HK18 (sgM Spec.covSign P) (sgV Spec.covSign s) R a b = FlowY.HK18 P s R a b := by
  simp only [FlowY.HK18, cov_1, sgV, sgM]
  try ring
theorem FlowY_HK19 : FlowY.HK19 (sgM Spec.covSign P) (sgV Spec.covSign s) R a b = FlowY.HK19 P s R a b := by
  simp only [FlowY.HK19, cov_2, sgV, sgM]
  try ring
theorem FlowY_HK20 : FlowY.HK20 (sgM Spec.covSign P) (sgV Spec.covSign s) R a b = FlowY.HK20 P s R a b := by
  simp only [FlowY.HK20, FlowY_HK19, sgV, sgM]
  try ring
theorem FlowY_HK21 : FlowY.HK21 (sgM Spec.covSign P) (sgV Spec.covSign s) R a b = FlowY.HK21 P s R a b := by
  simp only [FlowY.HK21, cov_0, sgV, sgM]
  try ring
theorem FlowY_HK22 : FlowY.HK22 (sgM Spec.covSign P) (sgV Spec.covSign s) R a b = FlowY.HK22 P s R a b := by
  simp only [FlowY.HK22, cov_3, sgV, sgM]
  try ring
theorem FlowY_HK23 : FlowY.HK23 (sgM Spec.covSign P) (sgV Spec.covSign s) R a b = FlowY.HK23 P s R a b := by
  simp only [FlowY.HK23, FlowY_HK21, FlowY_HK22, sgV, sgM]
  try ring
theorem FlowY_HK24 : FlowY.HK24 (sgM Spec.covSign P) (sgV Spec.covSign s) R a b = FlowY.HK24 P s R a b := by
  simp only [FlowY.HK24, FlowY_HK18, FlowY_HK20, FlowY_HK23, sgV, sgM]
  try ring
theorem FlowY_HK25 : FlowY.HK25 (sgM Spec.covSign P) (sgV Spec.covSign s) R a b = FlowY.HK25 P s R a b := by
  simp only [FlowY.HK25, FlowY_HK12, FlowY_HK13, FlowY_HK16, FlowY_HK17, FlowY_HK24, FlowY_HK13_z, sgV, sgM]
  try ring
theorem FlowY_HK26 : FlowY.HK26 (sgM Spec.covSign P) (sgV Spec.covSign s) R a b = FlowY.HK26 P s R a b := by
  simp only [FlowY.HK26, FlowY_HK14, FlowY_HK15, sgV, sgM]
  try ring
theorem FlowY_HK27_z : FlowY.HK27 P s R a b = 0 := by
  simp only [FlowY.HK27]
  try ring
theorem FlowY_HK27 : FlowY.HK27 (sgM Spec.covSign P) (sgV Spec.covSign s) R a b = FlowY.HK27 P s R a b := by
  simp only [FlowY.HK27, sgV, sgM]
  try ring
theorem FlowY_HK28 : FlowY.HK28 (sgM Spec.covSign P) (sgV Spec.covSign s) R a b = FlowY.HK28 P s R a b := by
  simp only [FlowY.HK28, cov_0, cov_1, sgV, sgM]
  try ring
theorem FlowY_HK29 : FlowY.HK29 (sgM Spec.covSign P) (sgV Spec.covSign s) R a b = FlowY.HK29 P s R a b := by
  simp only [FlowY.HK29, cov_2, cov_3, sgV, sgM]
  try ring
theorem FlowY_HK30 : FlowY.HK30 (sgM Spec.covSign P) (sgV Spec.covSign s) R a b = FlowY.HK30 P s R a b := by
  simp only [FlowY.HK30, FlowY_HK28, FlowY_HK29, sgV, sgM]
  try ring
theorem FlowY_HK31 : FlowY.HK31 (sgM Spec.covSign P) (sgV Spec.covSign s) R a b = FlowY.HK31 P s R a b := by
  simp only [FlowY.HK31, FlowY_HK18, sgV, sgM]
  try ring
theorem FlowY_HK32 : FlowY.HK32 (sgM Spec.covSign P) (sgV Spec.covSign s) R a b = FlowY.HK32 P s R a b := by
  simp only [FlowY.HK32, FlowY_HK19, FlowY_HK23, FlowY_HK31, sgV, sgM]
  try ring
theorem FlowY_HK33 : FlowY.HK33 (sgM Spec.covSign P) (sgV Spec.covSign s) R a b = FlowY.HK33 P s R a b := by
  simp only [FlowY.HK33, FlowY_HK13, FlowY_HK26, FlowY_HK27, FlowY_HK30, FlowY_HK32, FlowY_HK13_z, FlowY_HK27_z, sgV, sgM]
  try ring
theorem FlowY_HK34 : FlowY.HK34 (sgM Spec.covSign P) (sgV Spec.covSign s) R a b = FlowY.HK34 P s R a b := by
  simp only [FlowY.HK34, FlowY_HK28, FlowY_HK29, sgV, sgM]
  try ring
theorem FlowY_HK35 : FlowY.HK35 (sgM Spec.covSign P) (sgV Spec.covSign s) R a b = FlowY.HK35 P s R a b := by
  simp only [FlowY.HK35, FlowY_HK10, FlowY_HK11, sgV, sgM]
  try ring
theorem FlowY_HK36 : FlowY.HK36 (sgM Spec.covSign P) (sgV Spec.covSign s) R a b = FlowY.HK36 P s R a b := by
  simp only [FlowY.HK36, FlowY_HK20, FlowY_HK21, FlowY_HK22, FlowY_HK31, sgV, sgM]
  try ring
theorem FlowY_HK37 : FlowY.HK37 (sgM Spec.covSign P) (sgV Spec.covSign s) R a b = FlowY.HK37 P s R a b := by
  simp only [FlowY.HK37, FlowY_HK17, FlowY_HK27, FlowY_HK34, FlowY_HK35, FlowY_HK36, FlowY_HK27_z, sgV, sgM]
  try ring
theorem FlowY_HK38 : FlowY.HK38 (sgM Spec.covSign P) (sgV Spec.covSign s) R a b = -FlowY.HK38 P s R a b := by
  simp only [FlowY.HK38, FlowY_HK3, sgV, sgM]
  try ring
theorem FlowY_HK39 : FlowY.HK39 (sgM Spec.covSign P) (sgV Spec.covSign s) R a b = -FlowY.HK39 P s R a b := by
  simp only [FlowY.HK39, FlowY_HK7, sgV, sgM]
  try ring
theorem FlowY_HK40 : FlowY.HK40 (sgM Spec.covSign P) (sgV Spec.covSign s) R a b = -FlowY.HK40 P s R a b := by
  simp only [FlowY.HK40, FlowY_HK8, sgV, sgM]
  try ring
theorem FlowY_HK41 : FlowY.HK41 (sgM Spec.covSign P) (sgV Spec.covSign s) R a b = -FlowY.HK41 P s R a b := by
  simp only [FlowY.HK41, FlowY_HK9, sgV, sgM]
  try ring
theorem FlowY_HK42 : FlowY.HK42 (sgM Spec.covSign P) (sgV Spec.covSign s) R a b = -FlowY.HK42 P s R a b := by
  simp only [FlowY.HK42, FlowY_HK25, FlowY_HK33, FlowY_HK37, FlowY_HK38, FlowY_HK39, FlowY_HK40, FlowY_HK41, cov_0, cov_1, cov_2, cov_3, cov_4, cov_5, cov_6, sgV, sgM]
  try ring
theorem FlowY_HK43 : FlowY.HK43 (sgM Spec.covSign P) (sgV Spec.covSign s) R a b = FlowY.HK43 P s R a b := by
  simp only [FlowY.HK43, sgV, sgM]
  try ring
theorem FlowY_HK44 : FlowY.HK44 (sgM Spec.covSign P) (sgV Spec.covSign s) R a b = FlowY.HK44 P s R a b := by
  simp only [FlowY.HK44, FlowY_HK25, FlowY_HK33, FlowY_HK37, FlowY_HK38, FlowY_HK39, FlowY_HK40, FlowY_HK41, cov_0, cov_1, cov_2, cov_3, cov_4, cov_5, cov_6, sgV, sgM]
  try ring
theorem FlowY_HK45 : FlowY.HK45 (sgM Spec.covSign P) (sgV Spec.covSign s) R a b = FlowY.HK45 P s R a b := by
  simp only [FlowY.HK45, FlowY_HK25, FlowY_HK33, FlowY_HK37, FlowY_HK38, FlowY_HK39, FlowY_HK40, FlowY_HK41, cov_0, cov_1, cov_2, cov_3, cov_4, cov_5, cov_6, sgV, sgM]
  try ring
theorem FlowY_HK46 : FlowY.HK46 (sgM Spec.covSign P) (sgV Spec.covSign s) R a b = FlowY.HK46 P s R a b := by
  simp only [FlowY.HK46, FlowY_HK25, FlowY_HK33, FlowY_HK37, FlowY_HK38, FlowY_HK39, FlowY_HK40, FlowY_HK41, cov_0, cov_1, cov_2, cov_3, cov_4, cov_5, cov_6, sgV, sgM]
  try ring
theorem FlowY_HK47 : FlowY.HK47 (sgM Spec.covSign P) (sgV Spec.covSign s) R a b = -FlowY.HK47 P s R a b := by
  simp only [FlowY.HK47, FlowY_HK25, FlowY_HK33, FlowY_HK37, FlowY_HK38, FlowY_HK39, FlowY_HK40, FlowY_HK41, cov_0, cov_1, cov_2, cov_3, cov_4, cov_5, cov_6, sgV, sgM]
  try ring
theorem FlowY_HK48 : FlowY.HK48 (sgM Spec.covSign P) (sgV Spec.covSign s) R a b = -FlowY.HK48 P s R a b := by
  simp only [FlowY.HK48, FlowY_HK25, FlowY_HK33, FlowY_HK37, FlowY_HK38, FlowY_HK39, FlowY_HK40, FlowY_HK41, cov_0, cov_1, cov_2, cov_3, cov_4, cov_5, cov_6, sgV, sgM]
  try ring
theorem FlowY_HK49 : FlowY.HK49 (sgM Spec.covSign P) (sgV Spec.covSign s) R a b = -FlowY.HK49 P s R a b := by
  simp only [FlowY.HK49, FlowY_HK25, FlowY_HK33, FlowY_HK37, FlowY_HK38, FlowY_HK39, FlowY_HK40, FlowY_HK41, cov_0, cov_1, cov_2, cov_3, cov_4, cov_5, cov_6, sgV, sgM]
  try ring
theorem FlowY_HK51_z : FlowY.HK51 P s R a b = 0 := by
  simp only [FlowY.HK51]
  try ring
theorem FlowY_HK51 : FlowY.HK51 (sgM Spec.covSign P) (sgV Spec.covSign s) R a b = FlowY.HK51 P s R a b := by
  simp only [FlowY.HK51, cov_1, sgV, sgM]
  try ring
theorem FlowY_HK52_z : FlowY.HK52 P s R a b = 0 := by
  simp only [FlowY.HK52]
  try ring
theorem FlowY_HK52 : FlowY.HK52 (sgM Spec.covSign P) (sgV Spec.covSign s) R a b = FlowY.HK52 P s R a b := by
  simp only [FlowY.HK52, cov_0, sgV, sgM]
  try ring
theorem FlowY_HK53 : FlowY.HK53 (sgM Spec.covSign P) (sgV Spec.covSign s) R a b = -FlowY.HK53 P s R a b := by
  simp only [FlowY.HK53, cov_2, sgV, sgM]
  try ring
theorem FlowY_HK54 : FlowY.HK54 (sgM Spec.covSign P) (sgV Spec.covSign s) R a b = -FlowY.HK54 P s R a b := by
  simp only [FlowY.HK54, FlowY_HK51, FlowY_HK52, FlowY_HK53, FlowY_HK51_z, FlowY_HK52_z, sgV, sgM]
  try ring
theorem FlowY_HK55 : FlowY.HK55 (sgM Spec.covSign P) (sgV Spec.covSign s) R a b = -FlowY.HK55 P s R a b := by
  simp only [FlowY.HK55, cov_3, sgV, sgM]
  try ring
theorem FlowY_HK56_z : FlowY.HK56 P s R a b = 0 := by
  simp only [FlowY.HK56]
  try ring
theorem FlowY_HK56 : FlowY.HK56 (sgM Spec.covSign P) (sgV Spec.covSign s) R a b = FlowY.HK56 P s R a b := by
  simp only [FlowY.HK56, cov_0, sgV, sgM]
  try ring
theorem FlowY_HK57_z : FlowY.HK57 P s R a b = 0 := by
  simp only [FlowY.HK57]
  try ring
theorem FlowY_HK57 : FlowY.HK57 (sgM Spec.covSign P) (sgV Spec.covSign s) R a b = FlowY.HK57 P s R a b := by
  simp only [FlowY.HK57, cov_1, sgV, sgM]
  try ring
theorem FlowY_HK58 : FlowY.HK58 (sgM Spec.covSign P) (sgV Spec.covSign s) R a b = -FlowY.HK58 P s R a b := by
  simp only [FlowY.HK58, FlowY_HK55, FlowY_HK56, FlowY_HK57, FlowY_HK56_z, FlowY_HK57_z, sgV, sgM]
  try ring
theorem FlowY_HK59 : FlowY.HK59 (sgM Spec.covSign P) (sgV Spec.covSign s) R a b = -FlowY.HK59 P s R a b := by
  simp only [FlowY.HK59, cov_0, sgV, sgM]
  try ring
theorem FlowY_HK60_z : FlowY.HK60 P s R a b = 0 := by
  simp only [FlowY.HK60]
  try ring
theorem FlowY_HK60 : FlowY.HK60 (sgM Spec.covSign P) (sgV Spec.covSign s) R a b = FlowY.HK60 P s R a b := by
  simp only [FlowY.HK60, cov_2, sgV, sgM]
  try ring
theorem FlowY_HK61_z : FlowY.HK61 P s R a b = 0 := by
  simp only [FlowY.HK61]
  try ring
theorem FlowY_HK61 : FlowY.HK61 (sgM Spec.covSign P) (sgV Spec.covSign s) R a b = FlowY.HK61 P s R a b := by
  simp only [FlowY.HK61, cov_3, sgV, sgM]
  try ring
theorem FlowY_HK62 : FlowY.HK62 (sgM Spec.covSign P) (sgV Spec.covSign s) R a b = -FlowY.HK62 P s R a b := by
  simp only [FlowY.HK62, FlowY_HK59, FlowY_HK60, FlowY_HK61, FlowY_HK60_z, FlowY_HK61_z, sgV, sgM]
  try ring
theorem FlowY_HK63 : FlowY.HK63 (sgM Spec.covSign P) (sgV Spec.covSign s) R a b = -FlowY.HK63 P s R a b := by
  simp only [FlowY.HK63, FlowY_HK54, FlowY_HK58, FlowY_HK62, cov_4, cov_5, cov_6, sgV, sgM]
  try ring
theorem FlowY_HK64 : FlowY.HK64 (sgM Spec.covSign P) (sgV Spec.covSign s) R a b = -FlowY.HK64 P s R a b := by
  simp only [FlowY.HK64, cov_1, cov_2, cov_3, sgV, sgM]
  try ring
theorem FlowY_HK65 : FlowY.HK65 (sgM Spec.covSign P) (sgV Spec.covSign s) R a b = -FlowY.HK65 P s R a b := by
  simp only [FlowY.HK65, FlowY_HK58, FlowY_HK64, cov_4, cov_6, sgV, sgM]
  try ring
theorem FlowY_HK66 : FlowY.HK66 (sgM Spec.covSign P) (sgV Spec.covSign s) R a b = -FlowY.HK66 P s R a b := by
  simp only [FlowY.HK66, FlowY_HK54, FlowY_HK65, cov_5, sgV, sgM]
  try ring
theorem FlowY_HK67 : FlowY.HK67 (sgM Spec.covSign P) (sgV Spec.covSign s) R a b = -FlowY.HK67 P s R a b := by
  simp only [FlowY.HK67, FlowY_HK54, FlowY_HK64, cov_4, cov_5, sgV, sgM]
  try ring
theorem FlowY_HK68 : FlowY.HK68 (sgM Spec.covSign P) (sgV Spec.covSign s) R a b = -FlowY.HK68 P s R a b := by
  simp only [FlowY.HK68, FlowY_HK62, FlowY_HK67, cov_6, sgV, sgM]
  try ring
theorem FlowY_HK69 : FlowY.HK69 (sgM Spec.covSign P) (sgV Spec.covSign s) R a b = -FlowY.HK69 P s R a b := by
  simp only [FlowY.HK69, FlowY_HK62, FlowY_HK64, cov_5, cov_6, sgV, sgM]
  try ring
theorem FlowY_HK70 : FlowY.HK70 (sgM Spec.covSign P) (sgV Spec.covSign s) R a b = -FlowY.HK70 P s R a b := by
  simp only [FlowY.HK70, FlowY_HK58, FlowY_HK69, cov_4, sgV, sgM]
  try ring
theorem FlowY_HK71_z : FlowY.HK71 P s R a b = 0 := by
  simp only [FlowY.HK71]
  try ring
theorem FlowY_HK71 : FlowY.HK71 (sgM Spec.covSign P) (sgV Spec.covSign s) R a b = FlowY.HK71 P s R a b := by
  simp only [FlowY.HK71, sgV, sgM]
  try ring
theorem FlowY_HK72_z : FlowY.HK72 P s R a b = 0 := by
  simp only [FlowY.HK72]
  try ring
theorem FlowY_HK72 : FlowY.HK72 (sgM Spec.covSign P) (sgV Spec.covSign s) R a b = FlowY.HK72 P s R a b := by
  simp only [FlowY.HK72, sgV, sgM]
  try ring
theorem FlowY_HK73 : FlowY.HK73 (sgM Spec.covSign P) (sgV Spec.covSign s) R a b = FlowY.HK73 P s R a b := by
  simp only [FlowY.HK73, FlowY_HK12, FlowY_HK24, FlowY_HK72, FlowY_HK72_z, sgV, sgM]
  try ring
theorem FlowY_HK74 : FlowY.HK74 (sgM Spec.covSign P) (sgV Spec.covSign s) R a b = FlowY.HK74 P s R a b := by
  simp only [FlowY.HK74, FlowY_HK16, FlowY_HK71, FlowY_HK73, FlowY_HK71_z, sgV, sgM]
  try ring
theorem FlowY_HK75 : FlowY.HK75 (sgM Spec.covSign P) (sgV Spec.covSign s) R a b = FlowY.HK75 P s R a b := by
  simp only [FlowY.HK75, sgV, sgM]
  try ring
theorem FlowY_HK76 : FlowY.HK76 (sgM Spec.covSign P) (sgV Spec.covSign s) R a b = FlowY.HK76 P s R a b := by
  simp only [FlowY.HK76, FlowY_HK26, FlowY_HK32, FlowY_HK75, sgV, sgM]
  try ring
theorem FlowY_HK77 : FlowY.HK77 (sgM Spec.covSign P) (sgV Spec.covSign s) R a b = FlowY.HK77 P s R a b := by
  simp only [FlowY.HK77, FlowY_HK30, FlowY_HK72, FlowY_HK76, FlowY_HK72_z, sgV, sgM]
  try ring
theorem FlowY_HK78_z : FlowY.HK78 P s R a b = 0 := by
  simp only [FlowY.HK78, FlowY_HK71_z]
  try ring
theorem FlowY_HK78 : FlowY.HK78 (sgM Spec.covSign P) (sgV Spec.covSign s) R a b = FlowY.HK78 P s R a b := by
  simp only [FlowY.HK78, FlowY_HK34, FlowY_HK36, FlowY_HK71, FlowY_HK71_z, sgV, sgM]
  try ring
theorem FlowY_HK79 : FlowY.HK79 (sgM Spec.covSign P) (sgV Spec.covSign s) R a b = FlowY.HK79 P s R a b := by
  simp only [FlowY.HK79, FlowY_HK35, FlowY_HK75, FlowY_HK78, FlowY_HK78_z, sgV, sgM]
  try ring
theorem FlowY_HK80 : FlowY.HK80 (sgM Spec.covSign P) (sgV Spec.covSign s) R a b = -FlowY.HK80 P s R a b := by
  simp only [FlowY.HK80, FlowY_HK63, sgV, sgM]
  try ring
theorem FlowY_HK81 : FlowY.HK81 (sgM Spec.covSign P) (sgV Spec.covSign s) R a b = -FlowY.HK81 P s R a b := by
  simp only [FlowY.HK81, FlowY_HK51, FlowY_HK52, FlowY_HK53, FlowY_HK65, FlowY_HK51_z, FlowY_HK52_z, cov_5, sgV, sgM]
  try ring
theorem FlowY_HK82 : FlowY.HK82 (sgM Spec.covSign P) (sgV Spec.covSign s) R a b = -FlowY.HK82 P s R a b := by
  simp only [FlowY.HK82, FlowY_HK59, FlowY_HK60, FlowY_HK61, FlowY_HK67, FlowY_HK60_z, FlowY_HK61_z, cov_6, sgV, sgM]
  try ring
theorem FlowY_HK83 : FlowY.HK83 (sgM Spec.covSign P) (sgV Spec.covSign s) R a b = -FlowY.HK83 P s R a b := by
  simp only [FlowY.HK83, FlowY_HK55, FlowY_HK56, FlowY_HK57, FlowY_HK69, FlowY_HK56_z, FlowY_HK57_z, cov_4, sgV, sgM]
  try ring
theorem FlowY_HK84 : FlowY.HK84 (sgM Spec.covSign P) (sgV Spec.covSign s) R a b = FlowY.HK84 P s R a b := by
  simp only [FlowY.HK84, FlowY_HK14, FlowY_HK15, FlowY_HK71, FlowY_HK73, FlowY_HK71_z, sgV, sgM]
  try ring
theorem FlowY_HK85 : FlowY.HK85 (sgM Spec.covSign P) (sgV Spec.covSign s) R a b = FlowY.HK85 P s R a b := by
  simp only [FlowY.HK85, FlowY_HK28, FlowY_HK29, FlowY_HK72, FlowY_HK76, FlowY_HK72_z, sgV, sgM]
  try ring
theorem FlowY_HK86 : FlowY.HK86 (sgM Spec.covSign P) (sgV Spec.covSign s) R a b = FlowY.HK86 P s R a b := by
  simp only [FlowY.HK86, FlowY_HK10, FlowY_HK11, FlowY_HK75, FlowY_HK78, FlowY_HK78_z, sgV, sgM]
  try ring
theorem FlowY_HK87 : FlowY.HK87 (sgM Spec.covSign P) (sgV Spec.covSign s) R a b = -FlowY.HK87 P s R a b := by
  simp only [FlowY.HK87, FlowY_HK80, FlowY_HK81, FlowY_HK82, FlowY_HK83, FlowY_HK84, FlowY_HK85, FlowY_HK86, cov_0, cov_1, cov_2, cov_3, cov_4, cov_5, cov_6, sgV, sgM]
  try ring
theorem FlowY_HK88 : FlowY.HK88 (sgM Spec.covSign P) (sgV Spec.covSign s) R a b = FlowY.HK88 P s R a b := by
  simp only [FlowY.HK88, FlowY_HK80, FlowY_HK81, FlowY_HK82, FlowY_HK83, FlowY_HK84, FlowY_HK85, FlowY_HK86, cov_0, cov_1, cov_2, cov_3, cov_4, cov_5, cov_6, sgV, sgM]
  try ring
theorem FlowY_HK89 : FlowY.HK89 (sgM Spec.covSign P) (sgV Spec.covSign s) R a b = FlowY.HK89 P s R a b := by
  simp only [FlowY.HK89, FlowY_HK80, FlowY_HK81, FlowY_HK82, FlowY_HK83, FlowY_HK84, FlowY_HK85, FlowY_HK86, cov_0, cov_1, cov_2, cov_3, cov_4, cov_5, cov_6, sgV, sgM]
  try ring
theorem FlowY_HK90 : FlowY.HK90 (sgM Spec.covSign P) (sgV Spec.covSign s) R a b = FlowY.HK90 P s R a b := by
  simp only [FlowY.HK90, FlowY_HK80, FlowY_HK81, FlowY_HK82, FlowY_HK83, FlowY_HK84, FlowY_HK85, FlowY_HK86, cov_0, cov_1, cov_2, cov_3, cov_4, cov_5, cov_6, sgV, sgM]
  try ring
theorem FlowY_HK91 : FlowY.HK91 (sgM Spec.covSign P) (sgV Spec.covSign s) R a b = -FlowY.HK91 P s R a b := by
  simp only [FlowY.HK91, FlowY_HK80, FlowY_HK81, FlowY_HK82, FlowY_HK83, FlowY_HK84, FlowY_HK85, FlowY_HK86, cov_0, cov_1, cov_2, cov_3, cov_4, cov_5, cov_6, sgV, sgM]
  try ring
theorem FlowY_HK92 : FlowY.HK92 (sgM Spec.covSign P) (sgV Spec.covSign s) R a b = FlowY.HK92 P s R a b := by
  simp only [FlowY.HK92, FlowY_HK43, sgV, sgM]
  try ring
theorem FlowY_HK93 : FlowY.HK93 (sgM Spec.covSign P) (sgV Spec.covSign s) R a b = -FlowY.HK93 P s R a b := by
  simp only [FlowY.HK93, FlowY_HK80, FlowY_HK81, FlowY_HK82, FlowY_HK83, FlowY_HK84, FlowY_HK85, FlowY_HK86, cov_0, cov_1, cov_2, cov_3, cov_4, cov_5, cov_6, sgV, sgM]
  try ring
theorem FlowY_HK94 : FlowY.HK94 (sgM Spec.covSign P) (sgV Spec.covSign s) R a b = -FlowY.HK94 P s R a b := by
  simp only [FlowY.HK94, FlowY_HK80, FlowY_HK81, FlowY_HK82, FlowY_HK83, FlowY_HK84, FlowY_HK85, FlowY_HK86, cov_0, cov_1, cov_2, cov_3, cov_4, cov_5, cov_6, sgV, sgM]
  try ring
theorem FlowY_S : FlowY.S (sgM Spec.covSign P) (sgV Spec.covSign s) R a b = FlowY.S P s R a b := by
  simp only [FlowY.S, FlowY_HK43, FlowY_HK66, FlowY_HK68, FlowY_HK70, FlowY_HK74, FlowY_HK77, FlowY_HK79, FlowY_HK80, FlowY_HK87, FlowY_HK88, FlowY_HK89, FlowY_HK90, FlowY_HK91, FlowY_HK92, FlowY_HK93, FlowY_HK94, sgV, sgM]
  try ring
theorem FlowY_HK95 : FlowY.HK95 (sgM Spec.covSign P) (sgV Spec.covSign s) R a b = FlowY.HK95 P s R a b := by
  simp only [FlowY.HK95, FlowY_HK4, FlowY_S, sgV, sgM]
  try ring
theorem FlowY_hList : FlowY.hList (sgM Spec.covSign P) (sgV Spec.covSign s) R a b = (FlowY.hList P s R a b).map fun p => (p.1, (1 : ℝ) * (Spec.covSign p.1 * p.2)) := by
  simp only [FlowY.hList, List.map_cons, List.map_nil, FlowY_HK4, FlowY_HK5, FlowY_HK63, FlowY_HK66, FlowY_HK68, FlowY_HK70, FlowY_HK74, FlowY_HK77, FlowY_HK79, cov_0, cov_1, cov_2, cov_3, cov_4, cov_5, cov_6, sgV, sgM, List.cons.injEq, Prod.mk.injEq, true_and, and_true]
  refine ⟨by ring, by ring, by ring, by ring, by ring, by ring, by ring⟩
theorem FlowY_gain : FlowY.gain (sgM Spec.covSign Pr) (sgM Spec.covSign P) (sgV Spec.covSign s) R a b = fun i => (1 : ℝ) * (Spec.covSign i * FlowY.gain Pr P s R a b i) := by
  funext i
  unfold FlowY.gain
  by_cases c : i.val = 0
  · rw [if_pos c, if_pos c]
    rw [show Spec.covSign i = Spec.covSign 0 from congrArg _ (Fin.ext (by first | exact c | exact c.2))]
    simp only [FlowY_HK87, FlowY_HK95, cov_0, sgV, sgM]
    ring
  rw [if_neg c, if_neg c]
  clear c
  by_cases c : i.val = 1
  · rw [if_pos c, if_pos c]
    rw [show Spec.covSign i = Spec.covSign 1 from congrArg _ (Fin.ext (by first | exact c | exact c.2))]
    simp only [FlowY_HK94, FlowY_HK95, cov_1, sgV, sgM]
    ring
  rw [if_neg c, if_neg c]
  clear c
  by_cases c : i.val = 2
  · rw [if_pos c, if_pos c]
    rw [show Spec.covSign i = Spec.covSign 2 from congrArg _ (Fin.ext (by first | exact c | exact c.2))]
    simp only [FlowY_HK91, FlowY_HK95, cov_2, sgV, sgM]
    ring
  rw [if_neg c, if_neg c]
  clear c
  by_cases c : i.val = 3
  · rw [if_pos c, if_pos c]
    rw [show Spec.covSign i = Spec.covSign 3 from congrArg _ (Fin.ext (by first | exact c | exact c.2))]
    simp only [FlowY_HK93, FlowY_HK95, cov_3, sgV, sgM]
    ring
  rw [if_neg c, if_neg c]
  clear c
  by_cases c : i.val = 4
  · rw [if_pos c, if_pos c]
    rw [show Spec.covSign i = Spec.covSign 4 from congrArg _ (Fin.ext (by first | exact c | exact c.2))]
    simp only [FlowY_HK90, FlowY_HK95, cov_4, sgV, sgM]
    ring
  rw [if_neg c, if_neg c]
  clear c
  by_cases c : i.val = 5
  · rw [if_pos c, if_pos c]
    rw [show Spec.covSign i = Spec.covSign 5 from congrArg _ (Fin.ext (by first | exact c | exact c.2))]
    simp only [FlowY_HK89, FlowY_HK95, cov_5, sgV, sgM]
    ring
  rw [if_neg c, if_neg c]
  clear c
  by_cases c : i.val = 6
  · rw [if_pos c, if_pos c]
    rw [show Spec.covSign i = Spec.covSign 6 from congrArg _ (Fin.ext (by first | exact c | exact c.2))]
    simp only [FlowY_HK88, FlowY_HK95, cov_6, sgV, sgM]
    ring
  rw [if_neg c, if_neg c]
  clear c
  by_cases c : 7 ≤ i.val ∧ i.val ≤ 23
  · rw [if_pos c, if_pos c]
    simp only [FlowY_HK80, FlowY_HK81, FlowY_HK82, FlowY_HK83, FlowY_HK84, FlowY_HK85, FlowY_HK86, FlowY_HK95, cov_0, cov_1, cov_2, cov_3, cov_4, cov_5, cov_6, sgV, sgM]
    ring
  rw [if_neg c, if_neg c]
  clear c
  ring
theorem GpsYaw_HK0 : GpsYaw.HK0 (sgM Spec.covSign P) (sgV Spec.covSign s) R a b = GpsYaw.HK0 P s R a b := by
  simp only [GpsYaw.HK0, sgV, sgM]
  try ring
theorem GpsYaw_HK1 : GpsYaw.HK1 (sgM Spec.covSign P) (sgV Spec.covSign s) R a b = GpsYaw.HK1 P s R a b := by
  simp only [GpsYaw.HK1, cov_0, cov_3, sgV, sgM]
  try ring
theorem GpsYaw_HK2 : GpsYaw.HK2 (sgM Spec.covSign P) (sgV Spec.covSign s) R a b = GpsYaw.HK2 P s R a b := by
  simp only [GpsYaw.HK2, cov_1, cov_2, sgV, sgM]
  try ring
theorem GpsYaw_HK3 : GpsYaw.HK3 (sgM Spec.covSign P) (sgV Spec.covSign s) R a b = GpsYaw.HK3 P s R a b := by
  simp only [GpsYaw.HK3, GpsYaw_HK0, GpsYaw_HK1, GpsYaw_HK2, sgV, sgM]
  try ring
theorem GpsYaw_HK4 : GpsYaw.HK4 (sgM Spec.covSign P) (sgV Spec.covSign s) R a b = GpsYaw.HK4 P s R a b := by
  simp only [GpsYaw.HK4, sgV, sgM]
  try ring
theorem GpsYaw_HK5 : GpsYaw.HK5 (sgM Spec.covSign P) (sgV Spec.covSign s) R a b = GpsYaw.HK5 P s R a b := by
  simp only [GpsYaw.HK5, cov_1, sgV, sgM]
  try ring
theorem GpsYaw_HK6 : GpsYaw.HK6 (sgM Spec.covSign P) (sgV Spec.covSign s) R a b = GpsYaw.HK6 P s R a b := by
  simp only [GpsYaw.HK6, cov_2, sgV, sgM]
  try ring
theorem GpsYaw_HK7 : GpsYaw.HK7 (sgM Spec.covSign P) (sgV Spec.covSign s) R a b = GpsYaw.HK7 P s R a b := by
  simp only [GpsYaw.HK7, cov_0, cov_3, sgV, sgM]
  try ring
theorem GpsYaw_HK8 : GpsYaw.HK8 (sgM Spec.covSign P) (sgV Spec.covSign s) R a b = GpsYaw.HK8 P s R a b := by
  simp only [GpsYaw.HK8, GpsYaw_HK4, GpsYaw_HK5, GpsYaw_HK6, GpsYaw_HK7, sgV, sgM]
  try ring
theorem GpsYaw_HK9 : GpsYaw.HK9 (sgM Spec.covSign P) (sgV Spec.covSign s) R a b = GpsYaw.HK9 P s R a b := by
  simp only [GpsYaw.HK9, GpsYaw_HK3, GpsYaw_HK8, sgV, sgM]
  try ring
theorem GpsYaw_HK10 : GpsYaw.HK10 (sgM Spec.covSign P) (sgV Spec.covSign s) R a b = GpsYaw.HK10 P s R a b := by
  simp only [GpsYaw.HK10, GpsYaw_HK9, sgV, sgM]
  try ring
theorem GpsYaw_HK11 : GpsYaw.HK11 (sgM Spec.covSign P) (sgV Spec.covSign s) R a b = -GpsYaw.HK11 P s R a b := by
  simp only [GpsYaw.HK11, GpsYaw_HK4, cov_0, sgV, sgM]
  try ring
theorem GpsYaw_HK12 : GpsYaw.HK12 (sgM Spec.covSign P) (sgV Spec.covSign s) R a b = -GpsYaw.HK12 P s R a b := by
  simp only [GpsYaw.HK12, GpsYaw_HK0, cov_3, sgV, sgM]
  try ring
theorem GpsYaw_HK13 : GpsYaw.HK13 (sgM Spec.covSign P) (sgV Spec.covSign s) R a b = GpsYaw.HK13 P s R a b := by
  simp only [GpsYaw.HK13, GpsYaw_HK0, GpsYaw_HK1, GpsYaw_HK2, GpsYaw_HK4, GpsYaw_HK5, GpsYaw_HK6, GpsYaw_HK7, sgV, sgM]
  try ring
theorem GpsYaw_HK14 : GpsYaw.HK14 (sgM Spec.covSign P) (sgV Spec.covSign s) R a b = GpsYaw.HK14 P s R a b := by
  simp only [GpsYaw.HK14, GpsYaw_HK10, GpsYaw_HK13, sgV, sgM]
  try ring
theorem GpsYaw_HK15 : GpsYaw.HK15 (sgM Spec.covSign P) (sgV Spec.covSign s) R a b = -GpsYaw.HK15 P s R a b := by
  simp only [GpsYaw.HK15, GpsYaw_HK0, GpsYaw_HK4, cov_0, cov_3, sgV, sgM]
  try ring
theorem GpsYaw_HK16 : GpsYaw.HK16 (sgM Spec.covSign P) (sgV Spec.covSign s) R a b = -GpsYaw.HK16 P s R a b := by
  simp only [GpsYaw.HK16, GpsYaw_HK10, GpsYaw_HK11, GpsYaw_HK12, GpsYaw_HK14, GpsYaw_HK15, sgV, sgM]
  try ring
theorem GpsYaw_HK17 : GpsYaw.HK17 (sgM Spec.covSign P) (sgV Spec.covSign s) R a b = GpsYaw.HK17 P s R a b := by
  simp only [GpsYaw.HK17, GpsYaw_HK9, GpsYaw_HK13, sgV, sgM]
  try ring
theorem GpsYaw_HK18 : GpsYaw.HK18 (sgM Spec.covSign P) (sgV Spec.covSign s) R a b = GpsYaw.HK18 P s R a b := by
  simp only [GpsYaw.HK18, GpsYaw_HK17, sgV, sgM]
  try ring
theorem GpsYaw_HK19_inverse : GpsYaw.HK19_inverse (sgM Spec.covSign P) (sgV Spec.covSign s) R a b = GpsYaw.HK19_inverse P s R a b := by
  simp only [GpsYaw.HK19_inverse, GpsYaw_HK3, GpsYaw_HK8, sgV, sgM]
  try ring
theorem GpsYaw_HK19 : GpsYaw.HK19 (sgM Spec.covSign P) (sgV Spec.covSign s) R a b = GpsYaw.HK19 P s R a b := by
  simp only [GpsYaw.HK19, GpsYaw_HK19_inverse, sgV, sgM]
  try ring
theorem GpsYaw_HK20 : GpsYaw.HK20 (sgM Spec.covSign P) (sgV Spec.covSign s) R a b = -GpsYaw.HK20 P s R a b := by
  simp only [GpsYaw.HK20, GpsYaw_HK4, cov_1, sgV, sgM]
  try ring
theorem GpsYaw_HK21 : GpsYaw.HK21 (sgM Spec.covSign P) (sgV Spec.covSign s) R a b = -GpsYaw.HK21 P s R a b := by
  simp only [GpsYaw.HK21, GpsYaw_HK0, cov_2, sgV, sgM]
  try ring
theorem GpsYaw_HK22 : GpsYaw.HK22 (sgM Spec.covSign P) (sgV Spec.covSign s) R a b = GpsYaw.HK22 P s R a b := by
  simp only [GpsYaw.HK22, GpsYaw_HK13, GpsYaw_HK19, sgV, sgM]
  try ring
theorem GpsYaw_HK23 : GpsYaw.HK23 (sgM Spec.covSign P) (sgV Spec.covSign s) R a b = -GpsYaw.HK23 P s R a b := by
  simp only [GpsYaw.HK23, GpsYaw_HK0, GpsYaw_HK4, cov_1, cov_2, sgV, sgM]
  try ring
theorem GpsYaw_HK24 : GpsYaw.HK24 (sgM Spec.covSign P) (sgV Spec.covSign s) R a b = -GpsYaw.HK24 P s R a b := by
  simp only [GpsYaw.HK24, GpsYaw_HK19, GpsYaw_HK20, GpsYaw_HK21, GpsYaw_HK22, GpsYaw_HK23, sgV, sgM]
  try ring
theorem GpsYaw_HK25 : GpsYaw.HK25 (sgM Spec.covSign P) (sgV Spec.covSign s) R a b = -GpsYaw.HK25 P s R a b := by
  simp only [GpsYaw.HK25, GpsYaw_HK19, GpsYaw_HK20, GpsYaw_HK21, GpsYaw_HK22, GpsYaw_HK23, sgV, sgM]
  try ring
theorem GpsYaw_HK26 : GpsYaw.HK26 (sgM Spec.covSign P) (sgV Spec.covSign s) R a b = -GpsYaw.HK26 P s R a b := by
  simp only [GpsYaw.HK26, GpsYaw_HK10, GpsYaw_HK11, GpsYaw_HK12, GpsYaw_HK14, GpsYaw_HK15, sgV, sgM]
  try ring
theorem GpsYaw_HK27 : GpsYaw.HK27 (sgM Spec.covSign P) (sgV Spec.covSign s) R a b = -GpsYaw.HK27 P s R a b := by
  simp only [GpsYaw.HK27, GpsYaw_HK16, GpsYaw_HK24, GpsYaw_HK25, GpsYaw_HK26, cov_0, cov_1, cov_2, cov_3, sgV, sgM]
  try ring
theorem GpsYaw_HK28 : GpsYaw.HK28 (sgM Spec.covSign P) (sgV Spec.covSign s) R a b = -GpsYaw.HK28 P s R a b := by
  simp only [GpsYaw.HK28, GpsYaw_HK16, GpsYaw_HK24, GpsYaw_HK25, GpsYaw_HK26, cov_0, cov_1, cov_2, cov_3, sgV, sgM]
  try ring
theorem GpsYaw_HK29 : GpsYaw.HK29 (sgM Spec.covSign P) (sgV Spec.covSign s) R a b = GpsYaw.HK29 P s R a b := by
  simp only [GpsYaw.HK29, GpsYaw_HK17, sgV, sgM]
  try ring
theorem GpsYaw_HK30 : GpsYaw.HK30 (sgM Spec.covSign P) (sgV Spec.covSign s) R a b = -GpsYaw.HK30 P s R a b := by
  simp only [GpsYaw.HK30, GpsYaw_HK16, GpsYaw_HK24, GpsYaw_HK25, GpsYaw_HK26, cov_0, cov_1, cov_2, cov_3, sgV, sgM]
  try ring
theorem GpsYaw_HK31 : GpsYaw.HK31 (sgM Spec.covSign P) (sgV Spec.covSign s) R a b = -GpsYaw.HK31 P s R a b := by
  simp only [GpsYaw.HK31, GpsYaw_HK16, GpsYaw_HK24, GpsYaw_HK25, GpsYaw_HK26, cov_0, cov_1, cov_2, cov_3, sgV, sgM]
  try ring
theorem GpsYaw_S : GpsYaw.S (sgM Spec.covSign P) (sgV Spec.covSign s) R a b = GpsYaw.S P s R a b := by
  simp only [GpsYaw.S, GpsYaw_HK16, GpsYaw_HK24, GpsYaw_HK25, GpsYaw_HK26, GpsYaw_HK27, GpsYaw_HK28, GpsYaw_HK29, GpsYaw_HK30, GpsYaw_HK31, sgV, sgM]
  try ring
theorem GpsYaw_HK32 : GpsYaw.HK32 (sgM Spec.covSign P) (sgV Spec.covSign s) R a b = GpsYaw.HK32 P s R a b := by
  simp only [GpsYaw.HK32, GpsYaw_HK18, GpsYaw_S, sgV, sgM]
  try ring
theorem GpsYaw_hList : GpsYaw.hList (sgM Spec.covSign P) (sgV Spec.covSign s) R a b = (GpsYaw.hList P s R a b).map fun p => (p.1, (1 : ℝ) * (Spec.covSign p.1 * p.2)) := by
  simp only [GpsYaw.hList, List.map_cons, List.map_nil, GpsYaw_HK16, GpsYaw_HK18, GpsYaw_HK24, GpsYaw_HK25, GpsYaw_HK26, cov_0, cov_1, cov_2, cov_3, sgV, sgM, List.cons.injEq, Prod.mk.injEq, true_and, and_true]
  refine ⟨by ring, by ring, by ring, by ring⟩
theorem GpsYaw_gain : GpsYaw.gain (sgM Spec.covSign P) (sgV Spec.covSign s) R a b = fun i => (1 : ℝ) * (Spec.covSign i * GpsYaw.gain P s R a b i) := by
  funext i
  unfold GpsYaw.gain
  by_cases c : i.val = 0
  · rw [if_pos c, if_pos c]
    rw [show Spec.covSign i = Spec.covSign 0 from congrArg _ (Fin.ext (by first | exact c | exact c.2))]
    simp only [GpsYaw_HK27, GpsYaw_HK32, cov_0, sgV, sgM]
    ring
  rw [if_neg c, if_neg c]
  clear c
  by_cases c : i.val = 1
  · rw [if_pos c, if_pos c]
    rw [show Spec.covSign i = Spec.covSign 1 from congrArg _ (Fin.ext (by first | exact c | exact c.2))]
    simp only [GpsYaw_HK28, GpsYaw_HK32, cov_1, sgV, sgM]
    ring
  rw [if_neg c, if_neg c]
  clear c
  by_cases c : i.val = 2
  · rw [if_pos c, if_pos c]
    rw [show Spec.covSign i = Spec.covSign 2 from congrArg _ (Fin.ext (by first | exact c | exact c.2))]
    simp only [GpsYaw_HK30, GpsYaw_HK32, cov_2, sgV, sgM]
    ring
  rw [if_neg c, if_neg c]
  clear c
  by_cases c : i.val = 3
  · rw [if_pos c, if_pos c]
    rw [show Spec.covSign i = Spec.covSign 3 from congrArg _ (Fin.ext (by first | exact c | exact c.2))]
    simp only [GpsYaw_HK31, GpsYaw_HK32, cov_3, sgV, sgM]
    ring
  rw [if_neg c, if_neg c]
  clear c
  by_cases c : 4 ≤ i.val ∧ i.val ≤ 23
  · rw [if_pos c, if_pos c]
    simp only [GpsYaw_HK16, GpsYaw_HK24, GpsYaw_HK25, GpsYaw_HK26, GpsYaw_HK32, cov_0, cov_1, cov_2, cov_3, sgV, sgM]
    ring
  rw [if_neg c, if_neg c]
  clear c
  ring
theorem Decl_HK0 : Decl.HK0 (sgM Spec.covSign P) (sgV Spec.covSign s) R a b = Decl.HK0 P s R a b := by
  simp only [Decl.HK0, cov_16, sgV, sgM]
  try ring
theorem Decl_HK1 : Decl.HK1 (sgM Spec.covSign P) (sgV Spec.covSign s) R a b = Decl.HK1 P s R a b := by
  simp only [Decl.HK1, Decl_HK0, cov_17, sgV, sgM]
  try ring
theorem Decl_HK2 : Decl.HK2 (sgM Spec.covSign P) (sgV Spec.covSign s) R a b = Decl.HK2 P s R a b := by
  simp only [Decl.HK2, Decl_HK1, sgV, sgM]
  try ring
theorem Decl_HK3 : Decl.HK3 (sgM Spec.covSign P) (sgV Spec.covSign s) R a b = Decl.HK3 P s R a b := by
  simp only [Decl.HK3, cov_16, sgV, sgM]
  try ring
theorem Decl_HK4 : Decl.HK4 (sgM Spec.covSign P) (sgV Spec.covSign s) R a b = Decl.HK4 P s R a b := by
  simp only [Decl.HK4, Decl_HK2, Decl_HK3, sgV, sgM]
  try ring
theorem Decl_HK5 : Decl.HK5 (sgM Spec.covSign P) (sgV Spec.covSign s) R a b = Decl.HK5 P s R a b := by
  simp only [Decl.HK5, Decl_HK3, cov_17, sgV, sgM]
  try ring
theorem Decl_HK6 : Decl.HK6 (sgM Spec.covSign P) (sgV Spec.covSign s) R a b = Decl.HK6 P s R a b := by
  simp only [Decl.HK6, Decl_HK5, cov_16, cov_17, sgV, sgM]
  try ring
theorem Decl_HK7 : Decl.HK7 (sgM Spec.covSign P) (sgV Spec.covSign s) R a b = Decl.HK7 P s R a b := by
  simp only [Decl.HK7, Decl_HK1, sgV, sgM]
  try ring
theorem Decl_HK8 : Decl.HK8 (sgM Spec.covSign P) (sgV Spec.covSign s) R a b = Decl.HK8 P s R a b := by
  simp only [Decl.HK8, Decl_HK5, cov_16, cov_17, sgV, sgM]
  try ring
theorem Decl_S : Decl.S (sgM Spec.covSign P) (sgV Spec.covSign s) R a b = Decl.S P s R a b := by
  simp only [Decl.S, Decl_HK0, Decl_HK6, Decl_HK7, Decl_HK8, cov_16, cov_17, sgV, sgM]
  try ring
theorem Decl_HK9 : Decl.HK9 (sgM Spec.covSign P) (sgV Spec.covSign s) R a b = Decl.HK9 P s R a b := by
  simp only [Decl.HK9, Decl_HK4, Decl_S, sgV, sgM]
  try ring
theorem Decl_hList : Decl.hList (sgM Spec.covSign P) (sgV Spec.covSign s) R a b = (Decl.hList P s R a b).map fun p => (p.1, (1 : ℝ) * (Spec.covSign p.1 * p.2)) := by
  simp only [Decl.hList, List.map_cons, List.map_nil, Decl_HK0, Decl_HK2, Decl_HK4, cov_16, cov_17, sgV, sgM, List.cons.injEq, Prod.mk.injEq, true_and, and_true]
  refine ⟨by ring, by ring⟩
theorem Decl_gain : Decl.gain (sgM Spec.covSign P) (sgV Spec.covSign s) R a b = fun i => (1 : ℝ) * (Spec.covSign i * Decl.gain P s R a b i) := by
  funext i
  unfold Decl.gain
  by_cases c : 0 ≤ i.val ∧ i.val ≤ 15
  · rw [if_pos c, if_pos c]
    simp only [Decl_HK5, Decl_HK9, cov_16, cov_17, sgV, sgM]
    ring
  rw [if_neg c, if_neg c]
  clear c
  by_cases c : i.val = 16
  · rw [if_pos c, if_pos c]
    rw [show Spec.covSign i = Spec.covSign 16 from congrArg _ (Fin.ext (by first | exact c | exact c.2))]
    simp only [Decl_HK8, Decl_HK9, cov_16, sgV, sgM]
    ring
  rw [if_neg c, if_neg c]
  clear c
  by_cases c : i.val = 17
  · rw [if_pos c, if_pos c]
    rw [show Spec.covSign i = Spec.covSign 17 from congrArg _ (Fin.ext (by first | exact c | exact c.2))]
    simp only [Decl_HK6, Decl_HK9, cov_17, sgV, sgM]
    ring
  rw [if_neg c, if_neg c]
  clear c
  by_cases c : 18 ≤ i.val ∧ i.val ≤ 23
  · rw [if_pos c, if_pos c]
    simp only [Decl_HK5, Decl_HK9, cov_16, cov_17, sgV, sgM]
    ring
  rw [if_neg c, if_neg c]
  clear c
  ring

end Ecl.Whole.Cover
