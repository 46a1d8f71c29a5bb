import Verif.Whole.SignDefs

/-!
# Signs of the covariance prediction equations (generated by tools/gen_sign.py)
-/

set_option linter.unusedSimpArgs false
set_option linter.unusedVariables false

namespace Ecl.Whole.Mirror

open Ecl.Cov Ecl.Fusion

/-- the scalars of the prediction equations with changed signs -/
def predIn (x : PredIn ℝ) : PredIn ℝ := { x with q1 := -x.q1, q3 := -x.q3, dax := -x.dax, daz := -x.daz, dax_b := -x.dax_b, daz_b := -x.daz_b, dvy := -x.dvy, dvy_b := -x.dvy_b }

variable (P : Mat ℝ) (x : PredIn ℝ)

theorem in_q0 : (predIn x).q0 = x.q0 := rfl
theorem in_q1 : (predIn x).q1 = -x.q1 := rfl
theorem in_q2 : (predIn x).q2 = x.q2 := rfl
theorem in_q3 : (predIn x).q3 = -x.q3 := rfl
theorem in_dax : (predIn x).dax = -x.dax := rfl
theorem in_day : (predIn x).day = x.day := rfl
theorem in_daz : (predIn x).daz = -x.daz := rfl
theorem in_dvx : (predIn x).dvx = x.dvx := rfl
theorem in_dvy : (predIn x).dvy = -x.dvy := rfl
theorem in_dvz : (predIn x).dvz = x.dvz := rfl
theorem in_dax_b : (predIn x).dax_b = -x.dax_b := rfl
theorem in_day_b : (predIn x).day_b = x.day_b := rfl
theorem in_daz_b : (predIn x).daz_b = -x.daz_b := rfl
theorem in_dvx_b : (predIn x).dvx_b = x.dvx_b := rfl
theorem in_dvy_b : (predIn x).dvy_b = -x.dvy_b := rfl
theorem in_dvz_b : (predIn x).dvz_b = x.dvz_b := rfl
theorem in_daxVar : (predIn x).daxVar = x.daxVar := rfl
theorem in_dayVar : (predIn x).dayVar = x.dayVar := rfl
theorem in_dazVar : (predIn x).dazVar = x.dazVar := rfl
theorem in_dvxVar : (predIn x).dvxVar = x.dvxVar := rfl
theorem in_dvyVar : (predIn x).dvyVar = x.dvyVar := rfl
theorem in_dvzVar : (predIn x).dvzVar = x.dvzVar := rfl
theorem in_dt : (predIn x).dt = x.dt := rfl
theorem p_PS0 : PS0 (sgM Spec.mirSign P) (predIn x) = PS0 P x := by
  simp only [PS0, in_q1, sgM]
  try ring
theorem p_PS1 : PS1 (sgM Spec.mirSign P) (predIn x) = PS1 P x := by
  simp only [PS1, in_daxVar, sgM]
  try ring
theorem p_PS2 : PS2 (sgM Spec.mirSign P) (predIn x) = PS2 P x := by
  simp only [PS2, in_q2, sgM]
  try ring
theorem p_PS3 : PS3 (sgM Spec.mirSign P) (predIn x) = PS3 P x := by
  simp only [PS3, in_dayVar, sgM]
  try ring
theorem p_PS4 : PS4 (sgM Spec.mirSign P) (predIn x) = PS4 P x := by
  simp only [PS4, in_q3, sgM]
  try ring
theorem p_PS5 : PS5 (sgM Spec.mirSign P) (predIn x) = PS5 P x := by
  simp only [PS5, in_dazVar, sgM]
  try ring
theorem p_PS6 : PS6 (sgM Spec.mirSign P) (predIn x) = -PS6 P x := by
  simp only [PS6, in_q1, sgM]
  try ring
theorem p_PS7 : PS7 (sgM Spec.mirSign P) (predIn x) = PS7 P x := by
  simp only [PS7, in_q2, sgM]
  try ring
theorem p_PS8 : PS8 (sgM Spec.mirSign P) (predIn x) = -PS8 P x := by
  simp only [PS8, p_PS7, mir_10, mir_11, sgM]
  try ring
theorem p_PS9 : PS9 (sgM Spec.mirSign P) (predIn x) = -PS9 P x := by
  simp only [PS9, in_q3, sgM]
  try ring
theorem p_PS10 : PS10 (sgM Spec.mirSign P) (predIn x) = -PS10 P x := by
  simp only [PS10, p_PS9, mir_10, mir_12, sgM]
  try ring
theorem p_PS11 : PS11 (sgM Spec.mirSign P) (predIn x) = -PS11 P x := by
  simp only [PS11, in_dax, in_dax_b, sgM]
  try ring
theorem p_PS12 : PS12 (sgM Spec.mirSign P) (predIn x) = PS12 P x := by
  simp only [PS12, in_day, in_day_b, sgM]
  try ring
theorem p_PS13 : PS13 (sgM Spec.mirSign P) (predIn x) = -PS13 P x := by
  simp only [PS13, in_daz, in_daz_b, sgM]
  try ring
theorem p_PS14 : PS14 (sgM Spec.mirSign P) (predIn x) = -PS14 P x := by
  simp only [PS14, p_PS6, p_PS8, p_PS10, p_PS11, p_PS12, p_PS13, mir_0, mir_1, mir_2, mir_3, mir_10, sgM]
  try ring
theorem p_PS15 : PS15 (sgM Spec.mirSign P) (predIn x) = PS15 P x := by
  simp only [PS15, p_PS6, mir_10, mir_11, sgM]
  try ring
theorem p_PS16 : PS16 (sgM Spec.mirSign P) (predIn x) = PS16 P x := by
  simp only [PS16, p_PS9, mir_11, mir_12, sgM]
  try ring
theorem p_PS17 : PS17 (sgM Spec.mirSign P) (predIn x) = PS17 P x := by
  simp only [PS17, p_PS7, p_PS11, p_PS12, p_PS13, p_PS15, p_PS16, mir_0, mir_1, mir_2, mir_3, mir_11, sgM]
  try ring
theorem p_PS18 : PS18 (sgM Spec.mirSign P) (predIn x) = -PS18 P x := by
  simp only [PS18, p_PS6, mir_10, mir_12, sgM]
  try ring
theorem p_PS19 : PS19 (sgM Spec.mirSign P) (predIn x) = -PS19 P x := by
  simp only [PS19, p_PS7, mir_11, mir_12, sgM]
  try ring
theorem p_PS20 : PS20 (sgM Spec.mirSign P) (predIn x) = -PS20 P x := by
  simp only [PS20, p_PS9, p_PS11, p_PS12, p_PS13, p_PS18, p_PS19, mir_0, mir_1, mir_2, mir_3, mir_12, sgM]
  try ring
theorem p_PS21 : PS21 (sgM Spec.mirSign P) (predIn x) = -PS21 P x := by
  simp only [PS21, p_PS12, mir_1, mir_2, sgM]
  try ring
theorem p_PS22 : PS22 (sgM Spec.mirSign P) (predIn x) = -PS22 P x := by
  simp only [PS22, p_PS13, mir_1, mir_3, sgM]
  try ring
theorem p_PS23 : PS23 (sgM Spec.mirSign P) (predIn x) = -PS23 P x := by
  simp only [PS23, p_PS6, p_PS7, p_PS9, p_PS11, p_PS21, p_PS22, mir_0, mir_1, mir_10, mir_11, mir_12, sgM]
  try ring
theorem p_PS24 : PS24 (sgM Spec.mirSign P) (predIn x) = PS24 P x := by
  simp only [PS24, p_PS11, mir_1, mir_2, sgM]
  try ring
theorem p_PS25 : PS25 (sgM Spec.mirSign P) (predIn x) = PS25 P x := by
  simp only [PS25, p_PS13, mir_2, mir_3, sgM]
  try ring
theorem p_PS26 : PS26 (sgM Spec.mirSign P) (predIn x) = PS26 P x := by
  simp only [PS26, p_PS6, p_PS7, p_PS9, p_PS12, p_PS24, p_PS25, mir_0, mir_2, mir_10, mir_11, mir_12, sgM]
  try ring
theorem p_PS27 : PS27 (sgM Spec.mirSign P) (predIn x) = -PS27 P x := by
  simp only [PS27, p_PS11, mir_1, mir_3, sgM]
  try ring
theorem p_PS28 : PS28 (sgM Spec.mirSign P) (predIn x) = -PS28 P x := by
  simp only [PS28, p_PS12, mir_2, mir_3, sgM]
  try ring
theorem p_PS29 : PS29 (sgM Spec.mirSign P) (predIn x) = -PS29 P x := by
  simp only [PS29, p_PS6, p_PS7, p_PS9, p_PS13, p_PS27, p_PS28, mir_0, mir_3, mir_10, mir_11, mir_12, sgM]
  try ring
theorem p_PS30 : PS30 (sgM Spec.mirSign P) (predIn x) = PS30 P x := by
  simp only [PS30, p_PS11, mir_0, mir_1, sgM]
  try ring
theorem p_PS31 : PS31 (sgM Spec.mirSign P) (predIn x) = PS31 P x := by
  simp only [PS31, p_PS12, mir_0, mir_2, sgM]
  try ring
theorem p_PS32 : PS32 (sgM Spec.mirSign P) (predIn x) = PS32 P x := by
  simp only [PS32, p_PS13, mir_0, mir_3, sgM]
  try ring
theorem p_PS33 : PS33 (sgM Spec.mirSign P) (predIn x) = PS33 P x := by
  simp only [PS33, p_PS6, p_PS7, p_PS9, p_PS30, p_PS31, p_PS32, mir_0, mir_10, mir_11, mir_12, sgM]
  try ring
theorem p_PS34 : PS34 (sgM Spec.mirSign P) (predIn x) = PS34 P x := by
  simp only [PS34, in_q0, sgM]
  try ring
theorem p_PS35 : PS35 (sgM Spec.mirSign P) (predIn x) = -PS35 P x := by
  simp only [PS35, in_q2, in_q3, sgM]
  try ring
theorem p_PS36 : PS36 (sgM Spec.mirSign P) (predIn x) = -PS36 P x := by
  simp only [PS36, in_q0, in_q1, sgM]
  try ring
theorem p_PS37 : PS37 (sgM Spec.mirSign P) (predIn x) = PS37 P x := by
  simp only [PS37, in_q1, in_q3, sgM]
  try ring
theorem p_PS38 : PS38 (sgM Spec.mirSign P) (predIn x) = PS38 P x := by
  simp only [PS38, in_q0, in_q2, sgM]
  try ring
theorem p_PS39 : PS39 (sgM Spec.mirSign P) (predIn x) = -PS39 P x := by
  simp only [PS39, in_q1, in_q2, sgM]
  try ring
theorem p_PS40 : PS40 (sgM Spec.mirSign P) (predIn x) = -PS40 P x := by
  simp only [PS40, in_q0, in_q3, sgM]
  try ring
theorem p_PS41 : PS41 (sgM Spec.mirSign P) (predIn x) = PS41 P x := by
  simp only [PS41, p_PS2, sgM]
  try ring
theorem p_PS42 : PS42 (sgM Spec.mirSign P) (predIn x) = PS42 P x := by
  simp only [PS42, in_q0, sgM]
  try ring
theorem p_PS43 : PS43 (sgM Spec.mirSign P) (predIn x) = PS43 P x := by
  simp only [PS43, p_PS4, p_PS42, sgM]
  try ring
theorem p_PS44 : PS44 (sgM Spec.mirSign P) (predIn x) = PS44 P x := by
  simp only [PS44, p_PS0, p_PS41, p_PS43, sgM]
  try ring
theorem p_PS45 : PS45 (sgM Spec.mirSign P) (predIn x) = PS45 P x := by
  simp only [PS45, p_PS6, p_PS7, p_PS9, p_PS11, p_PS12, p_PS13, mir_0, mir_1, mir_2, mir_3, mir_10, mir_11, mir_12, mir_13, sgM]
  try ring
theorem p_PS46 : PS46 (sgM Spec.mirSign P) (predIn x) = PS46 P x := by
  simp only [PS46, p_PS37, p_PS38, sgM]
  try ring
theorem p_PS47 : PS47 (sgM Spec.mirSign P) (predIn x) = PS47 P x := by
  simp only [PS47, p_PS6, p_PS7, p_PS9, p_PS11, p_PS12, p_PS13, mir_0, mir_1, mir_2, mir_3, mir_10, mir_11, mir_12, mir_15, sgM]
  try ring
theorem p_PS48 : PS48 (sgM Spec.mirSign P) (predIn x) = PS48 P x := by
  simp only [PS48, p_PS47, sgM]
  try ring
theorem p_PS49 : PS49 (sgM Spec.mirSign P) (predIn x) = -PS49 P x := by
  simp only [PS49, in_dvy, in_dvy_b, sgM]
  try ring
theorem p_PS50 : PS50 (sgM Spec.mirSign P) (predIn x) = PS50 P x := by
  simp only [PS50, in_dvx, in_dvx_b, sgM]
  try ring
theorem p_PS51 : PS51 (sgM Spec.mirSign P) (predIn x) = PS51 P x := by
  simp only [PS51, in_dvz, in_dvz_b, sgM]
  try ring
theorem p_PS52 : PS52 (sgM Spec.mirSign P) (predIn x) = -PS52 P x := by
  simp only [PS52, p_PS49, p_PS50, p_PS51, in_q0, in_q1, in_q3, sgM]
  try ring
theorem p_PS53 : PS53 (sgM Spec.mirSign P) (predIn x) = -PS53 P x := by
  simp only [PS53, p_PS29, sgM]
  try ring
theorem p_PS54 : PS54 (sgM Spec.mirSign P) (predIn x) = -PS54 P x := by
  simp only [PS54, p_PS39, p_PS40, sgM]
  try ring
theorem p_PS55 : PS55 (sgM Spec.mirSign P) (predIn x) = -PS55 P x := by
  simp only [PS55, p_PS6, p_PS7, p_PS9, p_PS11, p_PS12, p_PS13, mir_0, mir_1, mir_2, mir_3, mir_10, mir_11, mir_12, mir_14, sgM]
  try ring
theorem p_PS56 : PS56 (sgM Spec.mirSign P) (predIn x) = -PS56 P x := by
  simp only [PS56, p_PS55, sgM]
  try ring
theorem p_PS57 : PS57 (sgM Spec.mirSign P) (predIn x) = PS57 P x := by
  simp only [PS57, p_PS49, p_PS50, p_PS51, in_q0, in_q2, in_q3, sgM]
  try ring
theorem p_PS58 : PS58 (sgM Spec.mirSign P) (predIn x) = PS58 P x := by
  simp only [PS58, p_PS33, sgM]
  try ring
theorem p_PS59 : PS59 (sgM Spec.mirSign P) (predIn x) = PS59 P x := by
  simp only [PS59, p_PS49, p_PS50, p_PS51, in_q0, in_q1, in_q2, sgM]
  try ring
theorem p_PS60 : PS60 (sgM Spec.mirSign P) (predIn x) = PS60 P x := by
  simp only [PS60, p_PS59, sgM]
  try ring
theorem p_PS61 : PS61 (sgM Spec.mirSign P) (predIn x) = -PS61 P x := by
  simp only [PS61, p_PS49, p_PS50, p_PS51, in_q1, in_q2, in_q3, sgM]
  try ring
theorem p_PS62 : PS62 (sgM Spec.mirSign P) (predIn x) = -PS62 P x := by
  simp only [PS62, p_PS61, sgM]
  try ring
theorem p_PS63 : PS63 (sgM Spec.mirSign P) (predIn x) = PS63 P x := by
  simp only [PS63, p_PS6, p_PS7, p_PS9, p_PS11, p_PS12, p_PS13, mir_0, mir_1, mir_2, mir_3, mir_4, mir_10, mir_11, mir_12, sgM]
  try ring
theorem p_PS64 : PS64 (sgM Spec.mirSign P) (predIn x) = PS64 P x := by
  simp only [PS64, p_PS0, sgM]
  try ring
theorem p_PS65 : PS65 (sgM Spec.mirSign P) (predIn x) = PS65 P x := by
  simp only [PS65, p_PS2, p_PS43, p_PS64, sgM]
  try ring
theorem p_PS66 : PS66 (sgM Spec.mirSign P) (predIn x) = -PS66 P x := by
  simp only [PS66, p_PS39, p_PS40, sgM]
  try ring
theorem p_PS67 : PS67 (sgM Spec.mirSign P) (predIn x) = PS67 P x := by
  simp only [PS67, p_PS45, sgM]
  try ring
theorem p_PS68 : PS68 (sgM Spec.mirSign P) (predIn x) = -PS68 P x := by
  simp only [PS68, p_PS35, p_PS36, sgM]
  try ring
theorem p_PS69 : PS69 (sgM Spec.mirSign P) (predIn x) = -PS69 P x := by
  simp only [PS69, p_PS6, p_PS7, p_PS9, p_PS11, p_PS12, p_PS13, mir_0, mir_1, mir_2, mir_3, mir_5, mir_10, mir_11, mir_12, sgM]
  try ring
theorem p_PS70 : PS70 (sgM Spec.mirSign P) (predIn x) = PS70 P x := by
  simp only [PS70, p_PS4, p_PS41, p_PS42, p_PS64, sgM]
  try ring
theorem p_PS71 : PS71 (sgM Spec.mirSign P) (predIn x) = -PS71 P x := by
  simp only [PS71, p_PS35, p_PS36, sgM]
  try ring
theorem p_PS72 : PS72 (sgM Spec.mirSign P) (predIn x) = PS72 P x := by
  simp only [PS72, p_PS57, sgM]
  try ring
theorem p_PS73 : PS73 (sgM Spec.mirSign P) (predIn x) = PS73 P x := by
  simp only [PS73, p_PS37, p_PS38, sgM]
  try ring
theorem p_PS74 : PS74 (sgM Spec.mirSign P) (predIn x) = -PS74 P x := by
  simp only [PS74, p_PS52, sgM]
  try ring
theorem p_PS75 : PS75 (sgM Spec.mirSign P) (predIn x) = PS75 P x := by
  simp only [PS75, p_PS6, p_PS7, p_PS9, p_PS11, p_PS12, p_PS13, mir_0, mir_1, mir_2, mir_3, mir_6, mir_10, mir_11, mir_12, sgM]
  try ring
theorem p_PS76 : PS76 (sgM Spec.mirSign P) (predIn x) = -PS76 P x := by
  simp only [PS76, p_PS34, mir_10, mir_11, sgM]
  try ring
theorem p_PS77 : PS77 (sgM Spec.mirSign P) (predIn x) = -PS77 P x := by
  simp only [PS77, p_PS9, p_PS11, p_PS12, p_PS13, p_PS19, p_PS76, mir_0, mir_1, mir_2, mir_3, mir_11, sgM]
  try ring
theorem p_PS78 : PS78 (sgM Spec.mirSign P) (predIn x) = -PS78 P x := by
  simp only [PS78, p_PS13, mir_0, mir_2, sgM]
  try ring
theorem p_PS79 : PS79 (sgM Spec.mirSign P) (predIn x) = -PS79 P x := by
  simp only [PS79, p_PS12, mir_0, mir_3, sgM]
  try ring
theorem p_PS80 : PS80 (sgM Spec.mirSign P) (predIn x) = -PS80 P x := by
  simp only [PS80, p_PS7, p_PS9, p_PS11, p_PS34, p_PS78, p_PS79, mir_0, mir_1, mir_10, mir_11, mir_12, sgM]
  try ring
theorem p_PS81 : PS81 (sgM Spec.mirSign P) (predIn x) = -PS81 P x := by
  simp only [PS81, p_PS11, mir_0, mir_2, sgM]
  try ring
theorem p_PS82 : PS82 (sgM Spec.mirSign P) (predIn x) = -PS82 P x := by
  simp only [PS82, p_PS7, p_PS9, p_PS13, p_PS28, p_PS34, p_PS81, mir_1, mir_2, mir_10, mir_11, mir_12, sgM]
  try ring
theorem p_PS83 : PS83 (sgM Spec.mirSign P) (predIn x) = PS83 P x := by
  simp only [PS83, p_PS9, mir_10, mir_11, sgM]
  try ring
theorem p_PS84 : PS84 (sgM Spec.mirSign P) (predIn x) = PS84 P x := by
  simp only [PS84, p_PS7, mir_10, mir_12, sgM]
  try ring
theorem p_PS85 : PS85 (sgM Spec.mirSign P) (predIn x) = PS85 P x := by
  simp only [PS85, p_PS11, p_PS12, p_PS13, p_PS34, p_PS83, p_PS84, mir_0, mir_1, mir_2, mir_3, mir_10, sgM]
  try ring
theorem p_PS86 : PS86 (sgM Spec.mirSign P) (predIn x) = PS86 P x := by
  simp only [PS86, p_PS34, mir_10, mir_12, sgM]
  try ring
theorem p_PS87 : PS87 (sgM Spec.mirSign P) (predIn x) = PS87 P x := by
  simp only [PS87, p_PS7, p_PS11, p_PS12, p_PS13, p_PS16, p_PS86, mir_0, mir_1, mir_2, mir_3, mir_12, sgM]
  try ring
theorem p_PS88 : PS88 (sgM Spec.mirSign P) (predIn x) = PS88 P x := by
  simp only [PS88, p_PS11, mir_0, mir_3, sgM]
  try ring
theorem p_PS89 : PS89 (sgM Spec.mirSign P) (predIn x) = PS89 P x := by
  simp only [PS89, p_PS7, p_PS9, p_PS12, p_PS25, p_PS34, p_PS88, mir_1, mir_3, mir_10, mir_11, mir_12, sgM]
  try ring
theorem p_PS90 : PS90 (sgM Spec.mirSign P) (predIn x) = PS90 P x := by
  simp only [PS90, p_PS13, mir_1, mir_2, sgM]
  try ring
theorem p_PS91 : PS91 (sgM Spec.mirSign P) (predIn x) = PS91 P x := by
  simp only [PS91, p_PS12, mir_1, mir_3, sgM]
  try ring
theorem p_PS92 : PS92 (sgM Spec.mirSign P) (predIn x) = PS92 P x := by
  simp only [PS92, p_PS7, p_PS9, p_PS30, p_PS34, p_PS90, p_PS91, mir_1, mir_10, mir_11, mir_12, sgM]
  try ring
theorem p_PS93 : PS93 (sgM Spec.mirSign P) (predIn x) = -PS93 P x := by
  simp only [PS93, p_PS7, p_PS9, p_PS11, p_PS12, p_PS13, p_PS34, mir_0, mir_1, mir_2, mir_3, mir_10, mir_11, mir_12, mir_13, sgM]
  try ring
theorem p_PS94 : PS94 (sgM Spec.mirSign P) (predIn x) = -PS94 P x := by
  simp only [PS94, p_PS7, p_PS9, p_PS11, p_PS12, p_PS13, p_PS34, mir_0, mir_1, mir_2, mir_3, mir_10, mir_11, mir_12, mir_15, sgM]
  try ring
theorem p_PS95 : PS95 (sgM Spec.mirSign P) (predIn x) = -PS95 P x := by
  simp only [PS95, p_PS94, sgM]
  try ring
theorem p_PS96 : PS96 (sgM Spec.mirSign P) (predIn x) = PS96 P x := by
  simp only [PS96, p_PS7, p_PS9, p_PS11, p_PS12, p_PS13, p_PS34, mir_0, mir_1, mir_2, mir_3, mir_10, mir_11, mir_12, mir_14, sgM]
  try ring
theorem p_PS97 : PS97 (sgM Spec.mirSign P) (predIn x) = PS97 P x := by
  simp only [PS97, p_PS96, sgM]
  try ring
theorem p_PS98 : PS98 (sgM Spec.mirSign P) (predIn x) = -PS98 P x := by
  simp only [PS98, p_PS7, p_PS9, p_PS11, p_PS12, p_PS13, p_PS34, mir_0, mir_1, mir_2, mir_3, mir_4, mir_10, mir_11, mir_12, sgM]
  try ring
theorem p_PS99 : PS99 (sgM Spec.mirSign P) (predIn x) = -PS99 P x := by
  simp only [PS99, p_PS93, sgM]
  try ring
theorem p_PS100 : PS100 (sgM Spec.mirSign P) (predIn x) = PS100 P x := by
  simp only [PS100, p_PS7, p_PS9, p_PS11, p_PS12, p_PS13, p_PS34, mir_0, mir_1, mir_2, mir_3, mir_5, mir_10, mir_11, mir_12, sgM]
  try ring
theorem p_PS101 : PS101 (sgM Spec.mirSign P) (predIn x) = -PS101 P x := by
  simp only [PS101, p_PS7, p_PS9, p_PS11, p_PS12, p_PS13, p_PS34, mir_0, mir_1, mir_2, mir_3, mir_6, mir_10, mir_11, mir_12, sgM]
  try ring
theorem p_PS102 : PS102 (sgM Spec.mirSign P) (predIn x) = -PS102 P x := by
  simp only [PS102, p_PS34, mir_11, mir_12, sgM]
  try ring
theorem p_PS103 : PS103 (sgM Spec.mirSign P) (predIn x) = -PS103 P x := by
  simp only [PS103, p_PS6, p_PS10, p_PS11, p_PS12, p_PS13, p_PS102, mir_0, mir_1, mir_2, mir_3, mir_12, sgM]
  try ring
theorem p_PS104 : PS104 (sgM Spec.mirSign P) (predIn x) = -PS104 P x := by
  simp only [PS104, p_PS6, p_PS9, p_PS11, p_PS22, p_PS34, p_PS79, mir_2, mir_3, mir_10, mir_11, mir_12, sgM]
  try ring
theorem p_PS105 : PS105 (sgM Spec.mirSign P) (predIn x) = PS105 P x := by
  simp only [PS105, p_PS13, mir_0, mir_1, sgM]
  try ring
theorem p_PS106 : PS106 (sgM Spec.mirSign P) (predIn x) = PS106 P x := by
  simp only [PS106, p_PS6, p_PS9, p_PS12, p_PS34, p_PS88, p_PS105, mir_0, mir_2, mir_10, mir_11, mir_12, sgM]
  try ring
theorem p_PS107 : PS107 (sgM Spec.mirSign P) (predIn x) = PS107 P x := by
  simp only [PS107, p_PS6, mir_11, mir_12, sgM]
  try ring
theorem p_PS108 : PS108 (sgM Spec.mirSign P) (predIn x) = PS108 P x := by
  simp only [PS108, p_PS11, p_PS12, p_PS13, p_PS34, p_PS83, p_PS107, mir_0, mir_1, mir_2, mir_3, mir_11, sgM]
  try ring
theorem p_PS109 : PS109 (sgM Spec.mirSign P) (predIn x) = -PS109 P x := by
  simp only [PS109, p_PS9, p_PS11, p_PS12, p_PS13, p_PS18, p_PS76, mir_0, mir_1, mir_2, mir_3, mir_10, sgM]
  try ring
theorem p_PS110 : PS110 (sgM Spec.mirSign P) (predIn x) = -PS110 P x := by
  simp only [PS110, p_PS12, mir_0, mir_1, sgM]
  try ring
theorem p_PS111 : PS111 (sgM Spec.mirSign P) (predIn x) = -PS111 P x := by
  simp only [PS111, p_PS6, p_PS9, p_PS13, p_PS27, p_PS34, p_PS110, mir_1, mir_2, mir_10, mir_11, mir_12, sgM]
  try ring
theorem p_PS112 : PS112 (sgM Spec.mirSign P) (predIn x) = PS112 P x := by
  simp only [PS112, p_PS11, mir_2, mir_3, sgM]
  try ring
theorem p_PS113 : PS113 (sgM Spec.mirSign P) (predIn x) = PS113 P x := by
  simp only [PS113, p_PS6, p_PS9, p_PS31, p_PS34, p_PS90, p_PS112, mir_2, mir_10, mir_11, mir_12, sgM]
  try ring
theorem p_PS114 : PS114 (sgM Spec.mirSign P) (predIn x) = PS114 P x := by
  simp only [PS114, p_PS6, p_PS9, p_PS11, p_PS12, p_PS13, p_PS34, mir_0, mir_1, mir_2, mir_3, mir_10, mir_11, mir_12, mir_13, sgM]
  try ring
theorem p_PS115 : PS115 (sgM Spec.mirSign P) (predIn x) = PS115 P x := by
  simp only [PS115, p_PS6, p_PS9, p_PS11, p_PS12, p_PS13, p_PS34, mir_0, mir_1, mir_2, mir_3, mir_10, mir_11, mir_12, mir_15, sgM]
  try ring
theorem p_PS116 : PS116 (sgM Spec.mirSign P) (predIn x) = PS116 P x := by
  simp only [PS116, p_PS115, sgM]
  try ring
theorem p_PS117 : PS117 (sgM Spec.mirSign P) (predIn x) = -PS117 P x := by
  simp only [PS117, p_PS6, p_PS9, p_PS11, p_PS12, p_PS13, p_PS34, mir_0, mir_1, mir_2, mir_3, mir_10, mir_11, mir_12, mir_14, sgM]
  try ring
theorem p_PS118 : PS118 (sgM Spec.mirSign P) (predIn x) = -PS118 P x := by
  simp only [PS118, p_PS117, sgM]
  try ring
theorem p_PS119 : PS119 (sgM Spec.mirSign P) (predIn x) = PS119 P x := by
  simp only [PS119, p_PS6, p_PS9, p_PS11, p_PS12, p_PS13, p_PS34, mir_0, mir_1, mir_2, mir_3, mir_4, mir_10, mir_11, mir_12, sgM]
  try ring
theorem p_PS120 : PS120 (sgM Spec.mirSign P) (predIn x) = PS120 P x := by
  simp only [PS120, p_PS114, sgM]
  try ring
theorem p_PS121 : PS121 (sgM Spec.mirSign P) (predIn x) = -PS121 P x := by
  simp only [PS121, p_PS6, p_PS9, p_PS11, p_PS12, p_PS13, p_PS34, mir_0, mir_1, mir_2, mir_3, mir_5, mir_10, mir_11, mir_12, sgM]
  try ring
theorem p_PS122 : PS122 (sgM Spec.mirSign P) (predIn x) = PS122 P x := by
  simp only [PS122, p_PS6, p_PS9, p_PS11, p_PS12, p_PS13, p_PS34, mir_0, mir_1, mir_2, mir_3, mir_6, mir_10, mir_11, mir_12, sgM]
  try ring
theorem p_PS123 : PS123 (sgM Spec.mirSign P) (predIn x) = PS123 P x := by
  simp only [PS123, p_PS7, p_PS11, p_PS12, p_PS13, p_PS15, p_PS86, mir_0, mir_1, mir_2, mir_3, mir_10, sgM]
  try ring
theorem p_PS124 : PS124 (sgM Spec.mirSign P) (predIn x) = PS124 P x := by
  simp only [PS124, p_PS6, p_PS7, p_PS12, p_PS24, p_PS34, p_PS105, mir_1, mir_3, mir_10, mir_11, mir_12, sgM]
  try ring
theorem p_PS125 : PS125 (sgM Spec.mirSign P) (predIn x) = -PS125 P x := by
  simp only [PS125, p_PS6, p_PS7, p_PS13, p_PS34, p_PS81, p_PS110, mir_0, mir_3, mir_10, mir_11, mir_12, sgM]
  try ring
theorem p_PS126 : PS126 (sgM Spec.mirSign P) (predIn x) = PS126 P x := by
  simp only [PS126, p_PS11, p_PS12, p_PS13, p_PS34, p_PS84, p_PS107, mir_0, mir_1, mir_2, mir_3, mir_12, sgM]
  try ring
theorem p_PS127 : PS127 (sgM Spec.mirSign P) (predIn x) = -PS127 P x := by
  simp only [PS127, p_PS6, p_PS8, p_PS11, p_PS12, p_PS13, p_PS102, mir_0, mir_1, mir_2, mir_3, mir_11, sgM]
  try ring
theorem p_PS128 : PS128 (sgM Spec.mirSign P) (predIn x) = -PS128 P x := by
  simp only [PS128, p_PS6, p_PS7, p_PS11, p_PS21, p_PS34, p_PS78, mir_2, mir_3, mir_10, mir_11, mir_12, sgM]
  try ring
theorem p_PS129 : PS129 (sgM Spec.mirSign P) (predIn x) = PS129 P x := by
  simp only [PS129, p_PS6, p_PS7, p_PS32, p_PS34, p_PS91, p_PS112, mir_3, mir_10, mir_11, mir_12, sgM]
  try ring
theorem p_PS130 : PS130 (sgM Spec.mirSign P) (predIn x) = -PS130 P x := by
  simp only [PS130, p_PS6, p_PS7, p_PS11, p_PS12, p_PS13, p_PS34, mir_0, mir_1, mir_2, mir_3, mir_10, mir_11, mir_12, mir_13, sgM]
  try ring
theorem p_PS131 : PS131 (sgM Spec.mirSign P) (predIn x) = -PS131 P x := by
  simp only [PS131, p_PS6, p_PS7, p_PS11, p_PS12, p_PS13, p_PS34, mir_0, mir_1, mir_2, mir_3, mir_10, mir_11, mir_12, mir_15, sgM]
  try ring
theorem p_PS132 : PS132 (sgM Spec.mirSign P) (predIn x) = -PS132 P x := by
  simp only [PS132, p_PS131, sgM]
  try ring
theorem p_PS133 : PS133 (sgM Spec.mirSign P) (predIn x) = PS133 P x := by
  simp only [PS133, p_PS6, p_PS7, p_PS11, p_PS12, p_PS13, p_PS34, mir_0, mir_1, mir_2, mir_3, mir_10, mir_11, mir_12, mir_14, sgM]
  try ring
theorem p_PS134 : PS134 (sgM Spec.mirSign P) (predIn x) = PS134 P x := by
  simp only [PS134, p_PS133, sgM]
  try ring
theorem p_PS135 : PS135 (sgM Spec.mirSign P) (predIn x) = -PS135 P x := by
  simp only [PS135, p_PS6, p_PS7, p_PS11, p_PS12, p_PS13, p_PS34, mir_0, mir_1, mir_2, mir_3, mir_4, mir_10, mir_11, mir_12, sgM]
  try ring
theorem p_PS136 : PS136 (sgM Spec.mirSign P) (predIn x) = -PS136 P x := by
  simp only [PS136, p_PS130, sgM]
  try ring
theorem p_PS137 : PS137 (sgM Spec.mirSign P) (predIn x) = PS137 P x := by
  simp only [PS137, p_PS6, p_PS7, p_PS11, p_PS12, p_PS13, p_PS34, mir_0, mir_1, mir_2, mir_3, mir_5, mir_10, mir_11, mir_12, sgM]
  try ring
theorem p_PS138 : PS138 (sgM Spec.mirSign P) (predIn x) = -PS138 P x := by
  simp only [PS138, p_PS6, p_PS7, p_PS11, p_PS12, p_PS13, p_PS34, mir_0, mir_1, mir_2, mir_3, mir_6, mir_10, mir_11, mir_12, sgM]
  try ring
theorem p_PS139 : PS139 (sgM Spec.mirSign P) (predIn x) = PS139 P x := by
  simp only [PS139, p_PS46, sgM]
  try ring
theorem p_PS140 : PS140 (sgM Spec.mirSign P) (predIn x) = -PS140 P x := by
  simp only [PS140, p_PS54, sgM]
  try ring
theorem p_PS141 : PS141 (sgM Spec.mirSign P) (predIn x) = PS141 P x := by
  simp only [PS141, p_PS44, p_PS60, p_PS62, p_PS72, p_PS74, p_PS139, p_PS140, mir_0, mir_1, mir_2, mir_3, mir_4, mir_13, mir_14, mir_15, sgM]
  try ring
theorem p_PS142 : PS142 (sgM Spec.mirSign P) (predIn x) = PS142 P x := by
  simp only [PS142, p_PS44, p_PS60, p_PS62, p_PS72, p_PS74, p_PS139, p_PS140, mir_0, mir_1, mir_2, mir_3, mir_4, mir_13, mir_14, mir_15, sgM]
  try ring
theorem p_PS143 : PS143 (sgM Spec.mirSign P) (predIn x) = -PS143 P x := by
  simp only [PS143, p_PS62, mir_1, mir_3, sgM]
  try ring
theorem p_PS144 : PS144 (sgM Spec.mirSign P) (predIn x) = -PS144 P x := by
  simp only [PS144, p_PS72, mir_0, mir_3, sgM]
  try ring
theorem p_PS145 : PS145 (sgM Spec.mirSign P) (predIn x) = -PS145 P x := by
  simp only [PS145, p_PS44, p_PS60, p_PS74, p_PS139, p_PS140, p_PS143, p_PS144, mir_2, mir_3, mir_4, mir_13, mir_14, mir_15, sgM]
  try ring
theorem p_PS146 : PS146 (sgM Spec.mirSign P) (predIn x) = -PS146 P x := by
  simp only [PS146, p_PS44, p_PS60, p_PS62, p_PS72, p_PS74, p_PS139, p_PS140, mir_0, mir_1, mir_2, mir_3, mir_4, mir_13, mir_14, mir_15, sgM]
  try ring
theorem p_PS147 : PS147 (sgM Spec.mirSign P) (predIn x) = PS147 P x := by
  simp only [PS147, p_PS60, mir_0, mir_2, sgM]
  try ring
theorem p_PS148 : PS148 (sgM Spec.mirSign P) (predIn x) = PS148 P x := by
  simp only [PS148, p_PS74, mir_0, mir_3, sgM]
  try ring
theorem p_PS149 : PS149 (sgM Spec.mirSign P) (predIn x) = PS149 P x := by
  simp only [PS149, p_PS44, p_PS62, p_PS72, p_PS139, p_PS140, p_PS147, p_PS148, mir_0, mir_1, mir_4, mir_13, mir_14, mir_15, sgM]
  try ring
theorem p_PS150 : PS150 (sgM Spec.mirSign P) (predIn x) = PS150 P x := by
  simp only [PS150, p_PS62, mir_1, mir_2, sgM]
  try ring
theorem p_PS151 : PS151 (sgM Spec.mirSign P) (predIn x) = PS151 P x := by
  simp only [PS151, p_PS72, mir_0, mir_2, sgM]
  try ring
theorem p_PS152 : PS152 (sgM Spec.mirSign P) (predIn x) = PS152 P x := by
  simp only [PS152, p_PS44, p_PS60, p_PS74, p_PS139, p_PS140, p_PS150, p_PS151, mir_2, mir_3, mir_4, mir_13, mir_14, mir_15, sgM]
  try ring
theorem p_PS153 : PS153 (sgM Spec.mirSign P) (predIn x) = -PS153 P x := by
  simp only [PS153, p_PS60, mir_1, mir_2, sgM]
  try ring
theorem p_PS154 : PS154 (sgM Spec.mirSign P) (predIn x) = -PS154 P x := by
  simp only [PS154, p_PS74, mir_1, mir_3, sgM]
  try ring
theorem p_PS155 : PS155 (sgM Spec.mirSign P) (predIn x) = -PS155 P x := by
  simp only [PS155, p_PS44, p_PS62, p_PS72, p_PS139, p_PS140, p_PS153, p_PS154, mir_0, mir_1, mir_4, mir_13, mir_14, mir_15, sgM]
  try ring
theorem p_PS156 : PS156 (sgM Spec.mirSign P) (predIn x) = PS156 P x := by
  simp only [PS156, in_dvyVar, sgM]
  try ring
theorem p_PS157 : PS157 (sgM Spec.mirSign P) (predIn x) = PS157 P x := by
  simp only [PS157, in_dvzVar, sgM]
  try ring
theorem p_PS158 : PS158 (sgM Spec.mirSign P) (predIn x) = PS158 P x := by
  simp only [PS158, p_PS44, p_PS60, p_PS62, p_PS72, p_PS74, p_PS139, p_PS140, mir_0, mir_1, mir_2, mir_3, mir_4, mir_13, mir_14, mir_15, sgM]
  try ring
theorem p_PS159 : PS159 (sgM Spec.mirSign P) (predIn x) = PS159 P x := by
  simp only [PS159, p_PS141, sgM]
  try ring
theorem p_PS160 : PS160 (sgM Spec.mirSign P) (predIn x) = -PS160 P x := by
  simp only [PS160, p_PS68, sgM]
  try ring
theorem p_PS161 : PS161 (sgM Spec.mirSign P) (predIn x) = PS161 P x := by
  simp only [PS161, p_PS65, in_dvyVar, sgM]
  try ring
theorem p_PS162 : PS162 (sgM Spec.mirSign P) (predIn x) = -PS162 P x := by
  simp only [PS162, p_PS66, sgM]
  try ring
theorem p_PS163 : PS163 (sgM Spec.mirSign P) (predIn x) = PS163 P x := by
  simp only [PS163, p_PS44, in_dvxVar, sgM]
  try ring
theorem p_PS164 : PS164 (sgM Spec.mirSign P) (predIn x) = -PS164 P x := by
  simp only [PS164, p_PS44, p_PS60, p_PS62, p_PS72, p_PS74, p_PS139, p_PS140, mir_0, mir_1, mir_2, mir_3, mir_4, mir_5, mir_13, mir_14, mir_15, sgM]
  try ring
theorem p_PS165 : PS165 (sgM Spec.mirSign P) (predIn x) = -PS165 P x := by
  simp only [PS165, p_PS71, sgM]
  try ring
theorem p_PS166 : PS166 (sgM Spec.mirSign P) (predIn x) = PS166 P x := by
  simp only [PS166, p_PS73, sgM]
  try ring
theorem p_PS167 : PS167 (sgM Spec.mirSign P) (predIn x) = PS167 P x := by
  simp only [PS167, p_PS70, in_dvzVar, sgM]
  try ring
theorem p_PS168 : PS168 (sgM Spec.mirSign P) (predIn x) = PS168 P x := by
  simp only [PS168, p_PS44, p_PS60, p_PS62, p_PS72, p_PS74, p_PS139, p_PS140, mir_0, mir_1, mir_2, mir_3, mir_4, mir_6, mir_13, mir_14, mir_15, sgM]
  try ring
theorem p_PS169 : PS169 (sgM Spec.mirSign P) (predIn x) = PS169 P x := by
  simp only [PS169, p_PS60, p_PS62, p_PS65, p_PS72, p_PS74, p_PS160, p_PS162, mir_0, mir_1, mir_2, mir_3, mir_5, mir_13, mir_14, mir_15, sgM]
  try ring
theorem p_PS170 : PS170 (sgM Spec.mirSign P) (predIn x) = -PS170 P x := by
  simp only [PS170, p_PS60, p_PS62, p_PS65, p_PS72, p_PS74, p_PS160, p_PS162, mir_0, mir_1, mir_2, mir_3, mir_5, mir_13, mir_14, mir_15, sgM]
  try ring
theorem p_PS171 : PS171 (sgM Spec.mirSign P) (predIn x) = PS171 P x := by
  simp only [PS171, p_PS74, mir_0, mir_1, sgM]
  try ring
theorem p_PS172 : PS172 (sgM Spec.mirSign P) (predIn x) = PS172 P x := by
  simp only [PS172, p_PS60, p_PS65, p_PS72, p_PS150, p_PS160, p_PS162, p_PS171, mir_1, mir_3, mir_5, mir_13, mir_14, mir_15, sgM]
  try ring
theorem p_PS173 : PS173 (sgM Spec.mirSign P) (predIn x) = -PS173 P x := by
  simp only [PS173, p_PS60, p_PS62, p_PS65, p_PS72, p_PS74, p_PS160, p_PS162, mir_0, mir_1, mir_2, mir_3, mir_5, mir_13, mir_14, mir_15, sgM]
  try ring
theorem p_PS174 : PS174 (sgM Spec.mirSign P) (predIn x) = PS174 P x := by
  simp only [PS174, p_PS62, mir_2, mir_3, sgM]
  try ring
theorem p_PS175 : PS175 (sgM Spec.mirSign P) (predIn x) = PS175 P x := by
  simp only [PS175, p_PS60, p_PS65, p_PS72, p_PS148, p_PS160, p_PS162, p_PS174, mir_1, mir_3, mir_5, mir_13, mir_14, mir_15, sgM]
  try ring
theorem p_PS176 : PS176 (sgM Spec.mirSign P) (predIn x) = -PS176 P x := by
  simp only [PS176, p_PS60, mir_0, mir_1, sgM]
  try ring
theorem p_PS177 : PS177 (sgM Spec.mirSign P) (predIn x) = -PS177 P x := by
  simp only [PS177, p_PS62, p_PS65, p_PS74, p_PS144, p_PS160, p_PS162, p_PS176, mir_0, mir_2, mir_5, mir_13, mir_14, mir_15, sgM]
  try ring
theorem p_PS178 : PS178 (sgM Spec.mirSign P) (predIn x) = -PS178 P x := by
  simp only [PS178, p_PS72, mir_2, mir_3, sgM]
  try ring
theorem p_PS179 : PS179 (sgM Spec.mirSign P) (predIn x) = -PS179 P x := by
  simp only [PS179, p_PS62, p_PS65, p_PS74, p_PS153, p_PS160, p_PS162, p_PS178, mir_0, mir_2, mir_5, mir_13, mir_14, mir_15, sgM]
  try ring
theorem p_PS180 : PS180 (sgM Spec.mirSign P) (predIn x) = PS180 P x := by
  simp only [PS180, in_dvxVar, sgM]
  try ring
theorem p_PS181 : PS181 (sgM Spec.mirSign P) (predIn x) = PS181 P x := by
  simp only [PS181, p_PS60, p_PS62, p_PS65, p_PS72, p_PS74, p_PS160, p_PS162, mir_0, mir_1, mir_2, mir_3, mir_5, mir_13, mir_14, mir_15, sgM]
  try ring
theorem p_PS182 : PS182 (sgM Spec.mirSign P) (predIn x) = -PS182 P x := by
  simp only [PS182, p_PS60, p_PS62, p_PS65, p_PS72, p_PS74, p_PS160, p_PS162, mir_0, mir_1, mir_2, mir_3, mir_5, mir_6, mir_13, mir_14, mir_15, sgM]
  try ring
theorem p_PS183 : PS183 (sgM Spec.mirSign P) (predIn x) = PS183 P x := by
  simp only [PS183, p_PS60, p_PS62, p_PS70, p_PS72, p_PS74, p_PS165, p_PS166, mir_0, mir_1, mir_2, mir_3, mir_6, mir_13, mir_14, mir_15, sgM]
  try ring
theorem p_PS184 : PS184 (sgM Spec.mirSign P) (predIn x) = -PS184 P x := by
  simp only [PS184, p_PS60, p_PS62, p_PS70, p_PS72, p_PS74, p_PS165, p_PS166, mir_0, mir_1, mir_2, mir_3, mir_6, mir_13, mir_14, mir_15, sgM]
  try ring
theorem p_PS185 : PS185 (sgM Spec.mirSign P) (predIn x) = PS185 P x := by
  simp only [PS185, p_PS60, p_PS62, p_PS70, p_PS72, p_PS74, p_PS165, p_PS166, mir_0, mir_1, mir_2, mir_3, mir_6, mir_13, mir_14, mir_15, sgM]
  try ring
theorem p_PS186 : PS186 (sgM Spec.mirSign P) (predIn x) = PS186 P x := by
  simp only [PS186, p_PS60, p_PS62, p_PS70, p_PS72, p_PS74, p_PS165, p_PS166, mir_0, mir_1, mir_2, mir_3, mir_6, mir_13, mir_14, mir_15, sgM]
  try ring
theorem p_nx_0_0 : nx_0_0 (sgM Spec.mirSign P) (predIn x) = nx_0_0 P x := by
  simp only [nx_0_0, p_PS0, p_PS1, p_PS2, p_PS3, p_PS4, p_PS5, p_PS6, p_PS7, p_PS9, p_PS11, p_PS12, p_PS13, p_PS14, p_PS17, p_PS20, p_PS23, p_PS26, p_PS29, p_PS33, sgM]
  try ring
theorem p_nx_0_1 : nx_0_1 (sgM Spec.mirSign P) (predIn x) = -nx_0_1 P x := by
  simp only [nx_0_1, p_PS1, p_PS3, p_PS5, p_PS7, p_PS9, p_PS11, p_PS12, p_PS13, p_PS14, p_PS17, p_PS20, p_PS23, p_PS26, p_PS29, p_PS33, p_PS34, p_PS35, p_PS36, sgM]
  try ring
theorem p_nx_1_1 : nx_1_1 (sgM Spec.mirSign P) (predIn x) = nx_1_1 P x := by
  simp only [nx_1_1, p_PS1, p_PS2, p_PS3, p_PS4, p_PS5, p_PS7, p_PS9, p_PS11, p_PS12, p_PS13, p_PS34, p_PS42, p_PS77, p_PS80, p_PS82, p_PS85, p_PS87, p_PS89, p_PS92, sgM]
  try ring
theorem p_nx_0_2 : nx_0_2 (sgM Spec.mirSign P) (predIn x) = nx_0_2 P x := by
  simp only [nx_0_2, p_PS1, p_PS3, p_PS5, p_PS6, p_PS9, p_PS11, p_PS12, p_PS13, p_PS14, p_PS17, p_PS20, p_PS23, p_PS26, p_PS29, p_PS33, p_PS34, p_PS37, p_PS38, sgM]
  try ring
theorem p_nx_1_2 : nx_1_2 (sgM Spec.mirSign P) (predIn x) = -nx_1_2 P x := by
  simp only [nx_1_2, p_PS1, p_PS3, p_PS5, p_PS6, p_PS9, p_PS11, p_PS12, p_PS13, p_PS34, p_PS39, p_PS40, p_PS77, p_PS80, p_PS82, p_PS85, p_PS87, p_PS89, p_PS92, sgM]
  try ring
theorem p_nx_2_2 : nx_2_2 (sgM Spec.mirSign P) (predIn x) = nx_2_2 P x := by
  simp only [nx_2_2, p_PS0, p_PS1, p_PS3, p_PS4, p_PS5, p_PS6, p_PS9, p_PS11, p_PS12, p_PS13, p_PS34, p_PS42, p_PS103, p_PS104, p_PS106, p_PS108, p_PS109, p_PS111, p_PS113, sgM]
  try ring
theorem p_nx_0_3 : nx_0_3 (sgM Spec.mirSign P) (predIn x) = -nx_0_3 P x := by
  simp only [nx_0_3, p_PS1, p_PS3, p_PS5, p_PS6, p_PS7, p_PS11, p_PS12, p_PS13, p_PS14, p_PS17, p_PS20, p_PS23, p_PS26, p_PS29, p_PS33, p_PS34, p_PS39, p_PS40, sgM]
  try ring
theorem p_nx_1_3 : nx_1_3 (sgM Spec.mirSign P) (predIn x) = nx_1_3 P x := by
  simp only [nx_1_3, p_PS1, p_PS3, p_PS5, p_PS6, p_PS7, p_PS11, p_PS12, p_PS13, p_PS34, p_PS37, p_PS38, p_PS77, p_PS80, p_PS82, p_PS85, p_PS87, p_PS89, p_PS92, sgM]
  try ring
theorem p_nx_2_3 : nx_2_3 (sgM Spec.mirSign P) (predIn x) = -nx_2_3 P x := by
  simp only [nx_2_3, p_PS1, p_PS3, p_PS5, p_PS6, p_PS7, p_PS11, p_PS12, p_PS13, p_PS34, p_PS35, p_PS36, p_PS103, p_PS104, p_PS106, p_PS108, p_PS109, p_PS111, p_PS113, sgM]
  try ring
theorem p_nx_3_3 : nx_3_3 (sgM Spec.mirSign P) (predIn x) = nx_3_3 P x := by
  simp only [nx_3_3, p_PS0, p_PS1, p_PS2, p_PS3, p_PS5, p_PS6, p_PS7, p_PS11, p_PS12, p_PS13, p_PS34, p_PS42, p_PS123, p_PS124, p_PS125, p_PS126, p_PS127, p_PS128, p_PS129, sgM]
  try ring
theorem p_nx_0_4 : nx_0_4 (sgM Spec.mirSign P) (predIn x) = nx_0_4 P x := by
  simp only [nx_0_4, p_PS23, p_PS26, p_PS44, p_PS45, p_PS46, p_PS48, p_PS52, p_PS53, p_PS54, p_PS56, p_PS57, p_PS58, p_PS60, p_PS62, p_PS63, sgM]
  try ring
theorem p_nx_1_4 : nx_1_4 (sgM Spec.mirSign P) (predIn x) = -nx_1_4 P x := by
  simp only [nx_1_4, p_PS44, p_PS46, p_PS54, p_PS60, p_PS62, p_PS72, p_PS74, p_PS80, p_PS82, p_PS89, p_PS92, p_PS93, p_PS95, p_PS97, p_PS98, sgM]
  try ring
theorem p_nx_2_4 : nx_2_4 (sgM Spec.mirSign P) (predIn x) = nx_2_4 P x := by
  simp only [nx_2_4, p_PS44, p_PS46, p_PS54, p_PS60, p_PS62, p_PS72, p_PS74, p_PS104, p_PS106, p_PS111, p_PS113, p_PS114, p_PS116, p_PS118, p_PS119, sgM]
  try ring
theorem p_nx_3_4 : nx_3_4 (sgM Spec.mirSign P) (predIn x) = -nx_3_4 P x := by
  simp only [nx_3_4, p_PS44, p_PS46, p_PS54, p_PS60, p_PS62, p_PS72, p_PS74, p_PS124, p_PS125, p_PS128, p_PS129, p_PS130, p_PS132, p_PS134, p_PS135, sgM]
  try ring
theorem p_nx_4_4 : nx_4_4 (sgM Spec.mirSign P) (predIn x) = nx_4_4 P x := by
  simp only [nx_4_4, p_PS44, p_PS46, p_PS54, p_PS60, p_PS62, p_PS72, p_PS74, p_PS139, p_PS140, p_PS141, p_PS142, p_PS145, p_PS146, p_PS149, p_PS152, p_PS155, p_PS156, p_PS157, p_PS158, in_dvxVar, sgM]
  try ring
theorem p_nx_0_5 : nx_0_5 (sgM Spec.mirSign P) (predIn x) = -nx_0_5 P x := by
  simp only [nx_0_5, p_PS23, p_PS26, p_PS48, p_PS52, p_PS53, p_PS55, p_PS57, p_PS58, p_PS60, p_PS62, p_PS65, p_PS66, p_PS67, p_PS68, p_PS69, sgM]
  try ring
theorem p_nx_1_5 : nx_1_5 (sgM Spec.mirSign P) (predIn x) = nx_1_5 P x := by
  simp only [nx_1_5, p_PS60, p_PS62, p_PS65, p_PS66, p_PS68, p_PS72, p_PS74, p_PS80, p_PS82, p_PS89, p_PS92, p_PS95, p_PS96, p_PS99, p_PS100, sgM]
  try ring
theorem p_nx_2_5 : nx_2_5 (sgM Spec.mirSign P) (predIn x) = -nx_2_5 P x := by
  simp only [nx_2_5, p_PS60, p_PS62, p_PS65, p_PS66, p_PS68, p_PS72, p_PS74, p_PS104, p_PS106, p_PS111, p_PS113, p_PS116, p_PS117, p_PS120, p_PS121, sgM]
  try ring
theorem p_nx_3_5 : nx_3_5 (sgM Spec.mirSign P) (predIn x) = nx_3_5 P x := by
  simp only [nx_3_5, p_PS60, p_PS62, p_PS65, p_PS66, p_PS68, p_PS72, p_PS74, p_PS124, p_PS125, p_PS128, p_PS129, p_PS132, p_PS133, p_PS136, p_PS137, sgM]
  try ring
theorem p_nx_4_5 : nx_4_5 (sgM Spec.mirSign P) (predIn x) = -nx_4_5 P x := by
  simp only [nx_4_5, p_PS46, p_PS60, p_PS62, p_PS65, p_PS66, p_PS68, p_PS72, p_PS74, p_PS140, p_PS142, p_PS145, p_PS146, p_PS149, p_PS152, p_PS155, p_PS157, p_PS159, p_PS160, p_PS161, p_PS162, p_PS163, p_PS164, sgM]
  try ring
theorem p_nx_5_5 : nx_5_5 (sgM Spec.mirSign P) (predIn x) = nx_5_5 P x := by
  simp only [nx_5_5, p_PS60, p_PS62, p_PS65, p_PS66, p_PS68, p_PS72, p_PS74, p_PS157, p_PS160, p_PS162, p_PS169, p_PS170, p_PS172, p_PS173, p_PS175, p_PS177, p_PS179, p_PS180, p_PS181, in_dvyVar, sgM]
  try ring
theorem p_nx_0_6 : nx_0_6 (sgM Spec.mirSign P) (predIn x) = nx_0_6 P x := by
  simp only [nx_0_6, p_PS23, p_PS26, p_PS47, p_PS53, p_PS56, p_PS58, p_PS59, p_PS61, p_PS67, p_PS70, p_PS71, p_PS72, p_PS73, p_PS74, p_PS75, sgM]
  try ring
theorem p_nx_1_6 : nx_1_6 (sgM Spec.mirSign P) (predIn x) = -nx_1_6 P x := by
  simp only [nx_1_6, p_PS60, p_PS62, p_PS70, p_PS71, p_PS72, p_PS73, p_PS74, p_PS80, p_PS82, p_PS89, p_PS92, p_PS94, p_PS97, p_PS99, p_PS101, sgM]
  try ring
theorem p_nx_2_6 : nx_2_6 (sgM Spec.mirSign P) (predIn x) = nx_2_6 P x := by
  simp only [nx_2_6, p_PS60, p_PS62, p_PS70, p_PS71, p_PS72, p_PS73, p_PS74, p_PS104, p_PS106, p_PS111, p_PS113, p_PS115, p_PS118, p_PS120, p_PS122, sgM]
  try ring
theorem p_nx_3_6 : nx_3_6 (sgM Spec.mirSign P) (predIn x) = -nx_3_6 P x := by
  simp only [nx_3_6, p_PS60, p_PS62, p_PS70, p_PS71, p_PS72, p_PS73, p_PS74, p_PS124, p_PS125, p_PS128, p_PS129, p_PS131, p_PS134, p_PS136, p_PS138, sgM]
  try ring
theorem p_nx_4_6 : nx_4_6 (sgM Spec.mirSign P) (predIn x) = nx_4_6 P x := by
  simp only [nx_4_6, p_PS54, p_PS60, p_PS62, p_PS70, p_PS71, p_PS72, p_PS73, p_PS74, p_PS139, p_PS142, p_PS145, p_PS146, p_PS149, p_PS152, p_PS155, p_PS156, p_PS159, p_PS163, p_PS165, p_PS166, p_PS167, p_PS168, sgM]
  try ring
theorem p_nx_5_6 : nx_5_6 (sgM Spec.mirSign P) (predIn x) = -nx_5_6 P x := by
  simp only [nx_5_6, p_PS60, p_PS62, p_PS66, p_PS70, p_PS72, p_PS73, p_PS74, p_PS160, p_PS161, p_PS165, p_PS166, p_PS167, p_PS169, p_PS170, p_PS172, p_PS173, p_PS175, p_PS177, p_PS179, p_PS180, p_PS182, sgM]
  try ring
theorem p_nx_6_6 : nx_6_6 (sgM Spec.mirSign P) (predIn x) = nx_6_6 P x := by
  simp only [nx_6_6, p_PS60, p_PS62, p_PS70, p_PS71, p_PS72, p_PS73, p_PS74, p_PS143, p_PS147, p_PS151, p_PS154, p_PS156, p_PS165, p_PS166, p_PS171, p_PS174, p_PS176, p_PS178, p_PS180, p_PS183, p_PS184, p_PS185, p_PS186, mir_0, mir_1, mir_2, mir_3, mir_6, mir_13, mir_14, mir_15, in_dvzVar, sgM]
  try ring
theorem p_nx_0_7 : nx_0_7 (sgM Spec.mirSign P) (predIn x) = nx_0_7 P x := by
  simp only [nx_0_7, p_PS6, p_PS7, p_PS9, p_PS11, p_PS12, p_PS13, p_PS63, mir_0, mir_1, mir_2, mir_3, mir_7, mir_10, mir_11, mir_12, in_dt, sgM]
  try ring
theorem p_nx_1_7 : nx_1_7 (sgM Spec.mirSign P) (predIn x) = -nx_1_7 P x := by
  simp only [nx_1_7, p_PS7, p_PS9, p_PS11, p_PS12, p_PS13, p_PS34, p_PS98, mir_0, mir_1, mir_2, mir_3, mir_7, mir_10, mir_11, mir_12, in_dt, sgM]
  try ring
theorem p_nx_2_7 : nx_2_7 (sgM Spec.mirSign P) (predIn x) = nx_2_7 P x := by
  simp only [nx_2_7, p_PS6, p_PS9, p_PS11, p_PS12, p_PS13, p_PS34, p_PS119, mir_0, mir_1, mir_2, mir_3, mir_7, mir_10, mir_11, mir_12, in_dt, sgM]
  try ring
theorem p_nx_3_7 : nx_3_7 (sgM Spec.mirSign P) (predIn x) = -nx_3_7 P x := by
  simp only [nx_3_7, p_PS6, p_PS7, p_PS11, p_PS12, p_PS13, p_PS34, p_PS135, mir_0, mir_1, mir_2, mir_3, mir_7, mir_10, mir_11, mir_12, in_dt, sgM]
  try ring
theorem p_nx_4_7 : nx_4_7 (sgM Spec.mirSign P) (predIn x) = nx_4_7 P x := by
  simp only [nx_4_7, p_PS44, p_PS60, p_PS62, p_PS72, p_PS74, p_PS139, p_PS140, p_PS158, mir_0, mir_1, mir_2, mir_3, mir_4, mir_7, mir_13, mir_14, mir_15, in_dt, sgM]
  try ring
theorem p_nx_5_7 : nx_5_7 (sgM Spec.mirSign P) (predIn x) = -nx_5_7 P x := by
  simp only [nx_5_7, p_PS60, p_PS62, p_PS65, p_PS72, p_PS74, p_PS160, p_PS162, mir_0, mir_1, mir_2, mir_3, mir_4, mir_5, mir_7, mir_13, mir_14, mir_15, in_dt, sgM]
  try ring
theorem p_nx_6_7 : nx_6_7 (sgM Spec.mirSign P) (predIn x) = nx_6_7 P x := by
  simp only [nx_6_7, p_PS60, p_PS62, p_PS70, p_PS72, p_PS74, p_PS165, p_PS166, mir_0, mir_1, mir_2, mir_3, mir_4, mir_6, mir_7, mir_13, mir_14, mir_15, in_dt, sgM]
  try ring
theorem p_nx_7_7 : nx_7_7 (sgM Spec.mirSign P) (predIn x) = nx_7_7 P x := by
  simp only [nx_7_7, mir_4, mir_7, in_dt, sgM]
  try ring
theorem p_nx_0_8 : nx_0_8 (sgM Spec.mirSign P) (predIn x) = -nx_0_8 P x := by
  simp only [nx_0_8, p_PS6, p_PS7, p_PS9, p_PS11, p_PS12, p_PS13, p_PS69, mir_0, mir_1, mir_2, mir_3, mir_8, mir_10, mir_11, mir_12, in_dt, sgM]
  try ring
theorem p_nx_1_8 : nx_1_8 (sgM Spec.mirSign P) (predIn x) = nx_1_8 P x := by
  simp only [nx_1_8, p_PS7, p_PS9, p_PS11, p_PS12, p_PS13, p_PS34, p_PS100, mir_0, mir_1, mir_2, mir_3, mir_8, mir_10, mir_11, mir_12, in_dt, sgM]
  try ring
theorem p_nx_2_8 : nx_2_8 (sgM Spec.mirSign P) (predIn x) = -nx_2_8 P x := by
  simp only [nx_2_8, p_PS6, p_PS9, p_PS11, p_PS12, p_PS13, p_PS34, p_PS121, mir_0, mir_1, mir_2, mir_3, mir_8, mir_10, mir_11, mir_12, in_dt, sgM]
  try ring
theorem p_nx_3_8 : nx_3_8 (sgM Spec.mirSign P) (predIn x) = nx_3_8 P x := by
  simp only [nx_3_8, p_PS6, p_PS7, p_PS11, p_PS12, p_PS13, p_PS34, p_PS137, mir_0, mir_1, mir_2, mir_3, mir_8, mir_10, mir_11, mir_12, in_dt, sgM]
  try ring
theorem p_nx_4_8 : nx_4_8 (sgM Spec.mirSign P) (predIn x) = -nx_4_8 P x := by
  simp only [nx_4_8, p_PS44, p_PS60, p_PS62, p_PS72, p_PS74, p_PS139, p_PS140, p_PS164, mir_0, mir_1, mir_2, mir_3, mir_4, mir_8, mir_13, mir_14, mir_15, in_dt, sgM]
  try ring
theorem p_nx_5_8 : nx_5_8 (sgM Spec.mirSign P) (predIn x) = nx_5_8 P x := by
  simp only [nx_5_8, p_PS60, p_PS62, p_PS65, p_PS72, p_PS74, p_PS160, p_PS162, p_PS181, mir_0, mir_1, mir_2, mir_3, mir_5, mir_8, mir_13, mir_14, mir_15, in_dt, sgM]
  try ring
theorem p_nx_6_8 : nx_6_8 (sgM Spec.mirSign P) (predIn x) = -nx_6_8 P x := by
  simp only [nx_6_8, p_PS60, p_PS62, p_PS70, p_PS72, p_PS74, p_PS165, p_PS166, mir_0, mir_1, mir_2, mir_3, mir_5, mir_6, mir_8, mir_13, mir_14, mir_15, in_dt, sgM]
  try ring
theorem p_nx_7_8 : nx_7_8 (sgM Spec.mirSign P) (predIn x) = -nx_7_8 P x := by
  simp only [nx_7_8, mir_4, mir_5, mir_7, mir_8, in_dt, sgM]
  try ring
theorem p_nx_8_8 : nx_8_8 (sgM Spec.mirSign P) (predIn x) = nx_8_8 P x := by
  simp only [nx_8_8, mir_5, mir_8, in_dt, sgM]
  try ring
theorem p_nx_0_9 : nx_0_9 (sgM Spec.mirSign P) (predIn x) = nx_0_9 P x := by
  simp only [nx_0_9, p_PS6, p_PS7, p_PS9, p_PS11, p_PS12, p_PS13, p_PS75, mir_0, mir_1, mir_2, mir_3, mir_9, mir_10, mir_11, mir_12, in_dt, sgM]
  try ring
theorem p_nx_1_9 : nx_1_9 (sgM Spec.mirSign P) (predIn x) = -nx_1_9 P x := by
  simp only [nx_1_9, p_PS7, p_PS9, p_PS11, p_PS12, p_PS13, p_PS34, p_PS101, mir_0, mir_1, mir_2, mir_3, mir_9, mir_10, mir_11, mir_12, in_dt, sgM]
  try ring
theorem p_nx_2_9 : nx_2_9 (sgM Spec.mirSign P) (predIn x) = nx_2_9 P x := by
  simp only [nx_2_9, p_PS6, p_PS9, p_PS11, p_PS12, p_PS13, p_PS34, p_PS122, mir_0, mir_1, mir_2, mir_3, mir_9, mir_10, mir_11, mir_12, in_dt, sgM]
  try ring
theorem p_nx_3_9 : nx_3_9 (sgM Spec.mirSign P) (predIn x) = -nx_3_9 P x := by
  simp only [nx_3_9, p_PS6, p_PS7, p_PS11, p_PS12, p_PS13, p_PS34, p_PS138, mir_0, mir_1, mir_2, mir_3, mir_9, mir_10, mir_11, mir_12, in_dt, sgM]
  try ring
theorem p_nx_4_9 : nx_4_9 (sgM Spec.mirSign P) (predIn x) = nx_4_9 P x := by
  simp only [nx_4_9, p_PS44, p_PS60, p_PS62, p_PS72, p_PS74, p_PS139, p_PS140, p_PS168, mir_0, mir_1, mir_2, mir_3, mir_4, mir_9, mir_13, mir_14, mir_15, in_dt, sgM]
  try ring
theorem p_nx_5_9 : nx_5_9 (sgM Spec.mirSign P) (predIn x) = -nx_5_9 P x := by
  simp only [nx_5_9, p_PS60, p_PS62, p_PS65, p_PS72, p_PS74, p_PS160, p_PS162, p_PS182, mir_0, mir_1, mir_2, mir_3, mir_5, mir_9, mir_13, mir_14, mir_15, in_dt, sgM]
  try ring
theorem p_nx_6_9 : nx_6_9 (sgM Spec.mirSign P) (predIn x) = nx_6_9 P x := by
  simp only [nx_6_9, p_PS60, p_PS62, p_PS70, p_PS72, p_PS74, p_PS165, p_PS166, p_PS186, mir_0, mir_1, mir_2, mir_3, mir_6, mir_9, mir_13, mir_14, mir_15, in_dt, sgM]
  try ring
theorem p_nx_7_9 : nx_7_9 (sgM Spec.mirSign P) (predIn x) = nx_7_9 P x := by
  simp only [nx_7_9, mir_4, mir_6, mir_7, mir_9, in_dt, sgM]
  try ring
theorem p_nx_8_9 : nx_8_9 (sgM Spec.mirSign P) (predIn x) = -nx_8_9 P x := by
  simp only [nx_8_9, mir_5, mir_6, mir_8, mir_9, in_dt, sgM]
  try ring
theorem p_nx_9_9 : nx_9_9 (sgM Spec.mirSign P) (predIn x) = nx_9_9 P x := by
  simp only [nx_9_9, mir_6, mir_9, in_dt, sgM]
  try ring
theorem p_nx_0_10 : nx_0_10 (sgM Spec.mirSign P) (predIn x) = -nx_0_10 P x := by
  simp only [nx_0_10, p_PS14, sgM]
  try ring
theorem p_nx_1_10 : nx_1_10 (sgM Spec.mirSign P) (predIn x) = nx_1_10 P x := by
  simp only [nx_1_10, p_PS85, sgM]
  try ring
theorem p_nx_2_10 : nx_2_10 (sgM Spec.mirSign P) (predIn x) = -nx_2_10 P x := by
  simp only [nx_2_10, p_PS109, sgM]
  try ring
theorem p_nx_3_10 : nx_3_10 (sgM Spec.mirSign P) (predIn x) = nx_3_10 P x := by
  simp only [nx_3_10, p_PS123, sgM]
  try ring
theorem p_nx_4_10 : nx_4_10 (sgM Spec.mirSign P) (predIn x) = -nx_4_10 P x := by
  simp only [nx_4_10, p_PS44, p_PS60, p_PS62, p_PS72, p_PS74, p_PS139, p_PS140, mir_0, mir_1, mir_2, mir_3, mir_4, mir_10, mir_13, mir_14, mir_15, sgM]
  try ring
theorem p_nx_5_10 : nx_5_10 (sgM Spec.mirSign P) (predIn x) = nx_5_10 P x := by
  simp only [nx_5_10, p_PS60, p_PS62, p_PS65, p_PS72, p_PS74, p_PS160, p_PS162, mir_0, mir_1, mir_2, mir_3, mir_5, mir_10, mir_13, mir_14, mir_15, sgM]
  try ring
theorem p_nx_6_10 : nx_6_10 (sgM Spec.mirSign P) (predIn x) = -nx_6_10 P x := by
  simp only [nx_6_10, p_PS60, p_PS62, p_PS70, p_PS72, p_PS74, p_PS165, p_PS166, mir_0, mir_1, mir_2, mir_3, mir_6, mir_10, mir_13, mir_14, mir_15, sgM]
  try ring
theorem p_nx_7_10 : nx_7_10 (sgM Spec.mirSign P) (predIn x) = -nx_7_10 P x := by
  simp only [nx_7_10, mir_4, mir_7, mir_10, in_dt, sgM]
  try ring
theorem p_nx_8_10 : nx_8_10 (sgM Spec.mirSign P) (predIn x) = nx_8_10 P x := by
  simp only [nx_8_10, mir_5, mir_8, mir_10, in_dt, sgM]
  try ring
theorem p_nx_9_10 : nx_9_10 (sgM Spec.mirSign P) (predIn x) = -nx_9_10 P x := by
  simp only [nx_9_10, mir_6, mir_9, mir_10, in_dt, sgM]
  try ring
theorem p_nx_10_10 : nx_10_10 (sgM Spec.mirSign P) (predIn x) = nx_10_10 P x := by
  simp only [nx_10_10, mir_10, sgM]
  try ring
theorem p_nx_0_11 : nx_0_11 (sgM Spec.mirSign P) (predIn x) = nx_0_11 P x := by
  simp only [nx_0_11, p_PS17, sgM]
  try ring
theorem p_nx_1_11 : nx_1_11 (sgM Spec.mirSign P) (predIn x) = -nx_1_11 P x := by
  simp only [nx_1_11, p_PS77, sgM]
  try ring
theorem p_nx_2_11 : nx_2_11 (sgM Spec.mirSign P) (predIn x) = nx_2_11 P x := by
  simp only [nx_2_11, p_PS108, sgM]
  try ring
theorem p_nx_3_11 : nx_3_11 (sgM Spec.mirSign P) (predIn x) = -nx_3_11 P x := by
  simp only [nx_3_11, p_PS127, sgM]
  try ring
theorem p_nx_4_11 : nx_4_11 (sgM Spec.mirSign P) (predIn x) = nx_4_11 P x := by
  simp only [nx_4_11, p_PS44, p_PS60, p_PS62, p_PS72, p_PS74, p_PS139, p_PS140, mir_0, mir_1, mir_2, mir_3, mir_4, mir_11, mir_13, mir_14, mir_15, sgM]
  try ring
theorem p_nx_5_11 : nx_5_11 (sgM Spec.mirSign P) (predIn x) = -nx_5_11 P x := by
  simp only [nx_5_11, p_PS60, p_PS62, p_PS65, p_PS72, p_PS74, p_PS160, p_PS162, mir_0, mir_1, mir_2, mir_3, mir_5, mir_11, mir_13, mir_14, mir_15, sgM]
  try ring
theorem p_nx_6_11 : nx_6_11 (sgM Spec.mirSign P) (predIn x) = nx_6_11 P x := by
  simp only [nx_6_11, p_PS60, p_PS62, p_PS70, p_PS72, p_PS74, p_PS165, p_PS166, mir_0, mir_1, mir_2, mir_3, mir_6, mir_11, mir_13, mir_14, mir_15, sgM]
  try ring
theorem p_nx_7_11 : nx_7_11 (sgM Spec.mirSign P) (predIn x) = nx_7_11 P x := by
  simp only [nx_7_11, mir_4, mir_7, mir_11, in_dt, sgM]
  try ring
theorem p_nx_8_11 : nx_8_11 (sgM Spec.mirSign P) (predIn x) = -nx_8_11 P x := by
  simp only [nx_8_11, mir_5, mir_8, mir_11, in_dt, sgM]
  try ring
theorem p_nx_9_11 : nx_9_11 (sgM Spec.mirSign P) (predIn x) = nx_9_11 P x := by
  simp only [nx_9_11, mir_6, mir_9, mir_11, in_dt, sgM]
  try ring
theorem p_nx_10_11 : nx_10_11 (sgM Spec.mirSign P) (predIn x) = -nx_10_11 P x := by
  simp only [nx_10_11, mir_10, mir_11, sgM]
  try ring
theorem p_nx_11_11 : nx_11_11 (sgM Spec.mirSign P) (predIn x) = nx_11_11 P x := by
  simp only [nx_11_11, mir_11, sgM]
  try ring
theorem p_nx_0_12 : nx_0_12 (sgM Spec.mirSign P) (predIn x) = -nx_0_12 P x := by
  simp only [nx_0_12, p_PS20, sgM]
  try ring
theorem p_nx_1_12 : nx_1_12 (sgM Spec.mirSign P) (predIn x) = nx_1_12 P x := by
  simp only [nx_1_12, p_PS87, sgM]
  try ring
theorem p_nx_2_12 : nx_2_12 (sgM Spec.mirSign P) (predIn x) = -nx_2_12 P x := by
  simp only [nx_2_12, p_PS103, sgM]
  try ring
theorem p_nx_3_12 : nx_3_12 (sgM Spec.mirSign P) (predIn x) = nx_3_12 P x := by
  simp only [nx_3_12, p_PS126, sgM]
  try ring
theorem p_nx_4_12 : nx_4_12 (sgM Spec.mirSign P) (predIn x) = -nx_4_12 P x := by
  simp only [nx_4_12, p_PS44, p_PS60, p_PS62, p_PS72, p_PS74, p_PS139, p_PS140, mir_0, mir_1, mir_2, mir_3, mir_4, mir_12, mir_13, mir_14, mir_15, sgM]
  try ring
theorem p_nx_5_12 : nx_5_12 (sgM Spec.mirSign P) (predIn x) = nx_5_12 P x := by
  simp only [nx_5_12, p_PS60, p_PS62, p_PS65, p_PS72, p_PS74, p_PS160, p_PS162, mir_0, mir_1, mir_2, mir_3, mir_5, mir_12, mir_13, mir_14, mir_15, sgM]
  try ring
theorem p_nx_6_12 : nx_6_12 (sgM Spec.mirSign P) (predIn x) = -nx_6_12 P x := by
  simp only [nx_6_12, p_PS60, p_PS62, p_PS70, p_PS72, p_PS74, p_PS165, p_PS166, mir_0, mir_1, mir_2, mir_3, mir_6, mir_12, mir_13, mir_14, mir_15, sgM]
  try ring
theorem p_nx_7_12 : nx_7_12 (sgM Spec.mirSign P) (predIn x) = -nx_7_12 P x := by
  simp only [nx_7_12, mir_4, mir_7, mir_12, in_dt, sgM]
  try ring
theorem p_nx_8_12 : nx_8_12 (sgM Spec.mirSign P) (predIn x) = nx_8_12 P x := by
  simp only [nx_8_12, mir_5, mir_8, mir_12, in_dt, sgM]
  try ring
theorem p_nx_9_12 : nx_9_12 (sgM Spec.mirSign P) (predIn x) = -nx_9_12 P x := by
  simp only [nx_9_12, mir_6, mir_9, mir_12, in_dt, sgM]
  try ring
theorem p_nx_10_12 : nx_10_12 (sgM Spec.mirSign P) (predIn x) = nx_10_12 P x := by
  simp only [nx_10_12, mir_10, mir_12, sgM]
  try ring
theorem p_nx_11_12 : nx_11_12 (sgM Spec.mirSign P) (predIn x) = -nx_11_12 P x := by
  simp only [nx_11_12, mir_11, mir_12, sgM]
  try ring
theorem p_nx_12_12 : nx_12_12 (sgM Spec.mirSign P) (predIn x) = nx_12_12 P x := by
  simp only [nx_12_12, mir_12, sgM]
  try ring
theorem p_nx_0_13 : nx_0_13 (sgM Spec.mirSign P) (predIn x) = nx_0_13 P x := by
  simp only [nx_0_13, p_PS45, sgM]
  try ring
theorem p_nx_1_13 : nx_1_13 (sgM Spec.mirSign P) (predIn x) = -nx_1_13 P x := by
  simp only [nx_1_13, p_PS93, sgM]
  try ring
theorem p_nx_2_13 : nx_2_13 (sgM Spec.mirSign P) (predIn x) = nx_2_13 P x := by
  simp only [nx_2_13, p_PS114, sgM]
  try ring
theorem p_nx_3_13 : nx_3_13 (sgM Spec.mirSign P) (predIn x) = -nx_3_13 P x := by
  simp only [nx_3_13, p_PS130, sgM]
  try ring
theorem p_nx_4_13 : nx_4_13 (sgM Spec.mirSign P) (predIn x) = nx_4_13 P x := by
  simp only [nx_4_13, p_PS141, sgM]
  try ring
theorem p_nx_5_13 : nx_5_13 (sgM Spec.mirSign P) (predIn x) = -nx_5_13 P x := by
  simp only [nx_5_13, p_PS170, sgM]
  try ring
theorem p_nx_6_13 : nx_6_13 (sgM Spec.mirSign P) (predIn x) = nx_6_13 P x := by
  simp only [nx_6_13, p_PS185, sgM]
  try ring
theorem p_nx_7_13 : nx_7_13 (sgM Spec.mirSign P) (predIn x) = nx_7_13 P x := by
  simp only [nx_7_13, mir_4, mir_7, mir_13, in_dt, sgM]
  try ring
theorem p_nx_8_13 : nx_8_13 (sgM Spec.mirSign P) (predIn x) = -nx_8_13 P x := by
  simp only [nx_8_13, mir_5, mir_8, mir_13, in_dt, sgM]
  try ring
theorem p_nx_9_13 : nx_9_13 (sgM Spec.mirSign P) (predIn x) = nx_9_13 P x := by
  simp only [nx_9_13, mir_6, mir_9, mir_13, in_dt, sgM]
  try ring
theorem p_nx_10_13 : nx_10_13 (sgM Spec.mirSign P) (predIn x) = -nx_10_13 P x := by
  simp only [nx_10_13, mir_10, mir_13, sgM]
  try ring
theorem p_nx_11_13 : nx_11_13 (sgM Spec.mirSign P) (predIn x) = nx_11_13 P x := by
  simp only [nx_11_13, mir_11, mir_13, sgM]
  try ring
theorem p_nx_12_13 : nx_12_13 (sgM Spec.mirSign P) (predIn x) = -nx_12_13 P x := by
  simp only [nx_12_13, mir_12, mir_13, sgM]
  try ring
theorem p_nx_13_13 : nx_13_13 (sgM Spec.mirSign P) (predIn x) = nx_13_13 P x := by
  simp only [nx_13_13, mir_13, sgM]
  try ring
theorem p_nx_0_14 : nx_0_14 (sgM Spec.mirSign P) (predIn x) = -nx_0_14 P x := by
  simp only [nx_0_14, p_PS55, sgM]
  try ring
theorem p_nx_1_14 : nx_1_14 (sgM Spec.mirSign P) (predIn x) = nx_1_14 P x := by
  simp only [nx_1_14, p_PS96, sgM]
  try ring
theorem p_nx_2_14 : nx_2_14 (sgM Spec.mirSign P) (predIn x) = -nx_2_14 P x := by
  simp only [nx_2_14, p_PS117, sgM]
  try ring
theorem p_nx_3_14 : nx_3_14 (sgM Spec.mirSign P) (predIn x) = nx_3_14 P x := by
  simp only [nx_3_14, p_PS133, sgM]
  try ring
theorem p_nx_4_14 : nx_4_14 (sgM Spec.mirSign P) (predIn x) = -nx_4_14 P x := by
  simp only [nx_4_14, p_PS146, sgM]
  try ring
theorem p_nx_5_14 : nx_5_14 (sgM Spec.mirSign P) (predIn x) = nx_5_14 P x := by
  simp only [nx_5_14, p_PS169, sgM]
  try ring
theorem p_nx_6_14 : nx_6_14 (sgM Spec.mirSign P) (predIn x) = -nx_6_14 P x := by
  simp only [nx_6_14, p_PS184, sgM]
  try ring
theorem p_nx_7_14 : nx_7_14 (sgM Spec.mirSign P) (predIn x) = -nx_7_14 P x := by
  simp only [nx_7_14, mir_4, mir_7, mir_14, in_dt, sgM]
  try ring
theorem p_nx_8_14 : nx_8_14 (sgM Spec.mirSign P) (predIn x) = nx_8_14 P x := by
  simp only [nx_8_14, mir_5, mir_8, mir_14, in_dt, sgM]
  try ring
theorem p_nx_9_14 : nx_9_14 (sgM Spec.mirSign P) (predIn x) = -nx_9_14 P x := by
  simp only [nx_9_14, mir_6, mir_9, mir_14, in_dt, sgM]
  try ring
theorem p_nx_10_14 : nx_10_14 (sgM Spec.mirSign P) (predIn x) = nx_10_14 P x := by
  simp only [nx_10_14, mir_10, mir_14, sgM]
  try ring
theorem p_nx_11_14 : nx_11_14 (sgM Spec.mirSign P) (predIn x) = -nx_11_14 P x := by
  simp only [nx_11_14, mir_11, mir_14, sgM]
  try ring
theorem p_nx_12_14 : nx_12_14 (sgM Spec.mirSign P) (predIn x) = nx_12_14 P x := by
  simp only [nx_12_14, mir_12, mir_14, sgM]
  try ring
theorem p_nx_13_14 : nx_13_14 (sgM Spec.mirSign P) (predIn x) = -nx_13_14 P x := by
  simp only [nx_13_14, mir_13, mir_14, sgM]
  try ring
theorem p_nx_14_14 : nx_14_14 (sgM Spec.mirSign P) (predIn x) = nx_14_14 P x := by
  simp only [nx_14_14, mir_14, sgM]
  try ring
theorem p_nx_0_15 : nx_0_15 (sgM Spec.mirSign P) (predIn x) = nx_0_15 P x := by
  simp only [nx_0_15, p_PS47, sgM]
  try ring
theorem p_nx_1_15 : nx_1_15 (sgM Spec.mirSign P) (predIn x) = -nx_1_15 P x := by
  simp only [nx_1_15, p_PS94, sgM]
  try ring
theorem p_nx_2_15 : nx_2_15 (sgM Spec.mirSign P) (predIn x) = nx_2_15 P x := by
  simp only [nx_2_15, p_PS115, sgM]
  try ring
theorem p_nx_3_15 : nx_3_15 (sgM Spec.mirSign P) (predIn x) = -nx_3_15 P x := by
  simp only [nx_3_15, p_PS131, sgM]
  try ring
theorem p_nx_4_15 : nx_4_15 (sgM Spec.mirSign P) (predIn x) = nx_4_15 P x := by
  simp only [nx_4_15, p_PS142, sgM]
  try ring
theorem p_nx_5_15 : nx_5_15 (sgM Spec.mirSign P) (predIn x) = -nx_5_15 P x := by
  simp only [nx_5_15, p_PS173, sgM]
  try ring
theorem p_nx_6_15 : nx_6_15 (sgM Spec.mirSign P) (predIn x) = nx_6_15 P x := by
  simp only [nx_6_15, p_PS183, sgM]
  try ring
theorem p_nx_7_15 : nx_7_15 (sgM Spec.mirSign P) (predIn x) = nx_7_15 P x := by
  simp only [nx_7_15, mir_4, mir_7, mir_15, in_dt, sgM]
  try ring
theorem p_nx_8_15 : nx_8_15 (sgM Spec.mirSign P) (predIn x) = -nx_8_15 P x := by
  simp only [nx_8_15, mir_5, mir_8, mir_15, in_dt, sgM]
  try ring
theorem p_nx_9_15 : nx_9_15 (sgM Spec.mirSign P) (predIn x) = nx_9_15 P x := by
  simp only [nx_9_15, mir_6, mir_9, mir_15, in_dt, sgM]
  try ring
theorem p_nx_10_15 : nx_10_15 (sgM Spec.mirSign P) (predIn x) = -nx_10_15 P x := by
  simp only [nx_10_15, mir_10, mir_15, sgM]
  try ring
theorem p_nx_11_15 : nx_11_15 (sgM Spec.mirSign P) (predIn x) = nx_11_15 P x := by
  simp only [nx_11_15, mir_11, mir_15, sgM]
  try ring
theorem p_nx_12_15 : nx_12_15 (sgM Spec.mirSign P) (predIn x) = -nx_12_15 P x := by
  simp only [nx_12_15, mir_12, mir_15, sgM]
  try ring
theorem p_nx_13_15 : nx_13_15 (sgM Spec.mirSign P) (predIn x) = nx_13_15 P x := by
  simp only [nx_13_15, mir_13, mir_15, sgM]
  try ring
theorem p_nx_14_15 : nx_14_15 (sgM Spec.mirSign P) (predIn x) = -nx_14_15 P x := by
  simp only [nx_14_15, mir_14, mir_15, sgM]
  try ring
theorem p_nx_15_15 : nx_15_15 (sgM Spec.mirSign P) (predIn x) = nx_15_15 P x := by
  simp only [nx_15_15, mir_15, sgM]
  try ring
theorem p_nx_0_16 : nx_0_16 (sgM Spec.mirSign P) (predIn x) = nx_0_16 P x := by
  simp only [nx_0_16, p_PS6, p_PS7, p_PS9, p_PS11, p_PS12, p_PS13, mir_0, mir_1, mir_2, mir_3, mir_10, mir_11, mir_12, mir_16, sgM]
  try ring
theorem p_nx_1_16 : nx_1_16 (sgM Spec.mirSign P) (predIn x) = -nx_1_16 P x := by
  simp only [nx_1_16, p_PS7, p_PS9, p_PS11, p_PS12, p_PS13, p_PS34, mir_0, mir_1, mir_2, mir_3, mir_10, mir_11, mir_12, mir_16, sgM]
  try ring
theorem p_nx_2_16 : nx_2_16 (sgM Spec.mirSign P) (predIn x) = nx_2_16 P x := by
  simp only [nx_2_16, p_PS6, p_PS9, p_PS11, p_PS12, p_PS13, p_PS34, mir_0, mir_1, mir_2, mir_3, mir_10, mir_11, mir_12, mir_16, sgM]
  try ring
theorem p_nx_3_16 : nx_3_16 (sgM Spec.mirSign P) (predIn x) = -nx_3_16 P x := by
  simp only [nx_3_16, p_PS6, p_PS7, p_PS11, p_PS12, p_PS13, p_PS34, mir_0, mir_1, mir_2, mir_3, mir_10, mir_11, mir_12, mir_16, sgM]
  try ring
theorem p_nx_4_16 : nx_4_16 (sgM Spec.mirSign P) (predIn x) = nx_4_16 P x := by
  simp only [nx_4_16, p_PS44, p_PS60, p_PS62, p_PS72, p_PS74, p_PS139, p_PS140, mir_0, mir_1, mir_2, mir_3, mir_4, mir_13, mir_14, mir_15, mir_16, sgM]
  try ring
theorem p_nx_5_16 : nx_5_16 (sgM Spec.mirSign P) (predIn x) = -nx_5_16 P x := by
  simp only [nx_5_16, p_PS60, p_PS62, p_PS65, p_PS72, p_PS74, p_PS160, p_PS162, mir_0, mir_1, mir_2, mir_3, mir_5, mir_13, mir_14, mir_15, mir_16, sgM]
  try ring
theorem p_nx_6_16 : nx_6_16 (sgM Spec.mirSign P) (predIn x) = nx_6_16 P x := by
  simp only [nx_6_16, p_PS60, p_PS62, p_PS70, p_PS72, p_PS74, p_PS165, p_PS166, mir_0, mir_1, mir_2, mir_3, mir_6, mir_13, mir_14, mir_15, mir_16, sgM]
  try ring
theorem p_nx_7_16 : nx_7_16 (sgM Spec.mirSign P) (predIn x) = nx_7_16 P x := by
  simp only [nx_7_16, mir_4, mir_7, mir_16, in_dt, sgM]
  try ring
theorem p_nx_8_16 : nx_8_16 (sgM Spec.mirSign P) (predIn x) = -nx_8_16 P x := by
  simp only [nx_8_16, mir_5, mir_8, mir_16, in_dt, sgM]
  try ring
theorem p_nx_9_16 : nx_9_16 (sgM Spec.mirSign P) (predIn x) = nx_9_16 P x := by
  simp only [nx_9_16, mir_6, mir_9, mir_16, in_dt, sgM]
  try ring
theorem p_nx_10_16 : nx_10_16 (sgM Spec.mirSign P) (predIn x) = -nx_10_16 P x := by
  simp only [nx_10_16, mir_10, mir_16, sgM]
  try ring
theorem p_nx_11_16 : nx_11_16 (sgM Spec.mirSign P) (predIn x) = nx_11_16 P x := by
  simp only [nx_11_16, mir_11, mir_16, sgM]
  try ring
theorem p_nx_12_16 : nx_12_16 (sgM Spec.mirSign P) (predIn x) = -nx_12_16 P x := by
  simp only [nx_12_16, mir_12, mir_16, sgM]
  try ring
theorem p_nx_13_16 : nx_13_16 (sgM Spec.mirSign P) (predIn x) = nx_13_16 P x := by
  simp only [nx_13_16, mir_13, mir_16, sgM]
  try ring
theorem p_nx_14_16 : nx_14_16 (sgM Spec.mirSign P) (predIn x) = -nx_14_16 P x := by
  simp only [nx_14_16, mir_14, mir_16, sgM]
  try ring
theorem p_nx_15_16 : nx_15_16 (sgM Spec.mirSign P) (predIn x) = nx_15_16 P x := by
  simp only [nx_15_16, mir_15, mir_16, sgM]
  try ring
theorem p_nx_16_16 : nx_16_16 (sgM Spec.mirSign P) (predIn x) = nx_16_16 P x := by
  simp only [nx_16_16, mir_16, sgM]
  try ring
theorem p_nx_0_17 : nx_0_17 (sgM Spec.mirSign P) (predIn x) = -nx_0_17 P x := by
  simp only [nx_0_17, p_PS6, p_PS7, p_PS9, p_PS11, p_PS12, p_PS13, mir_0, mir_1, mir_2, mir_3, mir_10, mir_11, mir_12, mir_17, sgM]
  try ring
theorem p_nx_1_17 : nx_1_17 (sgM Spec.mirSign P) (predIn x) = nx_1_17 P x := by
  simp only [nx_1_17, p_PS7, p_PS9, p_PS11, p_PS12, p_PS13, p_PS34, mir_0, mir_1, mir_2, mir_3, mir_10, mir_11, mir_12, mir_17, sgM]
  try ring
theorem p_nx_2_17 : nx_2_17 (sgM Spec.mirSign P) (predIn x) = -nx_2_17 P x := by
  simp only [nx_2_17, p_PS6, p_PS9, p_PS11, p_PS12, p_PS13, p_PS34, mir_0, mir_1, mir_2, mir_3, mir_10, mir_11, mir_12, mir_17, sgM]
  try ring
theorem p_nx_3_17 : nx_3_17 (sgM Spec.mirSign P) (predIn x) = nx_3_17 P x := by
  simp only [nx_3_17, p_PS6, p_PS7, p_PS11, p_PS12, p_PS13, p_PS34, mir_0, mir_1, mir_2, mir_3, mir_10, mir_11, mir_12, mir_17, sgM]
  try ring
theorem p_nx_4_17 : nx_4_17 (sgM Spec.mirSign P) (predIn x) = -nx_4_17 P x := by
  simp only [nx_4_17, p_PS44, p_PS60, p_PS62, p_PS72, p_PS74, p_PS139, p_PS140, mir_0, mir_1, mir_2, mir_3, mir_4, mir_13, mir_14, mir_15, mir_17, sgM]
  try ring
theorem p_nx_5_17 : nx_5_17 (sgM Spec.mirSign P) (predIn x) = nx_5_17 P x := by
  simp only [nx_5_17, p_PS60, p_PS62, p_PS65, p_PS72, p_PS74, p_PS160, p_PS162, mir_0, mir_1, mir_2, mir_3, mir_5, mir_13, mir_14, mir_15, mir_17, sgM]
  try ring
theorem p_nx_6_17 : nx_6_17 (sgM Spec.mirSign P) (predIn x) = -nx_6_17 P x := by
  simp only [nx_6_17, p_PS60, p_PS62, p_PS70, p_PS72, p_PS74, p_PS165, p_PS166, mir_0, mir_1, mir_2, mir_3, mir_6, mir_13, mir_14, mir_15, mir_17, sgM]
  try ring
theorem p_nx_7_17 : nx_7_17 (sgM Spec.mirSign P) (predIn x) = -nx_7_17 P x := by
  simp only [nx_7_17, mir_4, mir_7, mir_17, in_dt, sgM]
  try ring
theorem p_nx_8_17 : nx_8_17 (sgM Spec.mirSign P) (predIn x) = nx_8_17 P x := by
  simp only [nx_8_17, mir_5, mir_8, mir_17, in_dt, sgM]
  try ring
theorem p_nx_9_17 : nx_9_17 (sgM Spec.mirSign P) (predIn x) = -nx_9_17 P x := by
  simp only [nx_9_17, mir_6, mir_9, mir_17, in_dt, sgM]
  try ring
theorem p_nx_10_17 : nx_10_17 (sgM Spec.mirSign P) (predIn x) = nx_10_17 P x := by
  simp only [nx_10_17, mir_10, mir_17, sgM]
  try ring
theorem p_nx_11_17 : nx_11_17 (sgM Spec.mirSign P) (predIn x) = -nx_11_17 P x := by
  simp only [nx_11_17, mir_11, mir_17, sgM]
  try ring
theorem p_nx_12_17 : nx_12_17 (sgM Spec.mirSign P) (predIn x) = nx_12_17 P x := by
  simp only [nx_12_17, mir_12, mir_17, sgM]
  try ring
theorem p_nx_13_17 : nx_13_17 (sgM Spec.mirSign P) (predIn x) = -nx_13_17 P x := by
  simp only [nx_13_17, mir_13, mir_17, sgM]
  try ring
theorem p_nx_14_17 : nx_14_17 (sgM Spec.mirSign P) (predIn x) = nx_14_17 P x := by
  simp only [nx_14_17, mir_14, mir_17, sgM]
  try ring
theorem p_nx_15_17 : nx_15_17 (sgM Spec.mirSign P) (predIn x) = -nx_15_17 P x := by
  simp only [nx_15_17, mir_15, mir_17, sgM]
  try ring
theorem p_nx_16_17 : nx_16_17 (sgM Spec.mirSign P) (predIn x) = -nx_16_17 P x := by
  simp only [nx_16_17, mir_16, mir_17, sgM]
  try ring
theorem p_nx_17_17 : nx_17_17 (sgM Spec.mirSign P) (predIn x) = nx_17_17 P x := by
  simp only [nx_17_17, mir_17, sgM]
  try ring
theorem p_nx_0_18 : nx_0_18 (sgM Spec.mirSign P) (predIn x) = nx_0_18 P x := by
  simp only [nx_0_18, p_PS6, p_PS7, p_PS9, p_PS11, p_PS12, p_PS13, mir_0, mir_1, mir_2, mir_3, mir_10, mir_11, mir_12, mir_18, sgM]
  try ring
theorem p_nx_1_18 : nx_1_18 (sgM Spec.mirSign P) (predIn x) = -nx_1_18 P x := by
  simp only [nx_1_18, p_PS7, p_PS9, p_PS11, p_PS12, p_PS13, p_PS34, mir_0, mir_1, mir_2, mir_3, mir_10, mir_11, mir_12, mir_18, sgM]
  try ring
theorem p_nx_2_18 : nx_2_18 (sgM Spec.mirSign P) (predIn x) = nx_2_18 P x := by
  simp only [nx_2_18, p_PS6, p_PS9, p_PS11, p_PS12, p_PS13, p_PS34, mir_0, mir_1, mir_2, mir_3, mir_10, mir_11, mir_12, mir_18, sgM]
  try ring
theorem p_nx_3_18 : nx_3_18 (sgM Spec.mirSign P) (predIn x) = -nx_3_18 P x := by
  simp only [nx_3_18, p_PS6, p_PS7, p_PS11, p_PS12, p_PS13, p_PS34, mir_0, mir_1, mir_2, mir_3, mir_10, mir_11, mir_12, mir_18, sgM]
  try ring
theorem p_nx_4_18 : nx_4_18 (sgM Spec.mirSign P) (predIn x) = nx_4_18 P x := by
  simp only [nx_4_18, p_PS44, p_PS60, p_PS62, p_PS72, p_PS74, p_PS139, p_PS140, mir_0, mir_1, mir_2, mir_3, mir_4, mir_13, mir_14, mir_15, mir_18, sgM]
  try ring
theorem p_nx_5_18 : nx_5_18 (sgM Spec.mirSign P) (predIn x) = -nx_5_18 P x := by
  simp only [nx_5_18, p_PS60, p_PS62, p_PS65, p_PS72, p_PS74, p_PS160, p_PS162, mir_0, mir_1, mir_2, mir_3, mir_5, mir_13, mir_14, mir_15, mir_18, sgM]
  try ring
theorem p_nx_6_18 : nx_6_18 (sgM Spec.mirSign P) (predIn x) = nx_6_18 P x := by
  simp only [nx_6_18, p_PS60, p_PS62, p_PS70, p_PS72, p_PS74, p_PS165, p_PS166, mir_0, mir_1, mir_2, mir_3, mir_6, mir_13, mir_14, mir_15, mir_18, sgM]
  try ring
theorem p_nx_7_18 : nx_7_18 (sgM Spec.mirSign P) (predIn x) = nx_7_18 P x := by
  simp only [nx_7_18, mir_4, mir_7, mir_18, in_dt, sgM]
  try ring
theorem p_nx_8_18 : nx_8_18 (sgM Spec.mirSign P) (predIn x) = -nx_8_18 P x := by
  simp only [nx_8_18, mir_5, mir_8, mir_18, in_dt, sgM]
  try ring
theorem p_nx_9_18 : nx_9_18 (sgM Spec.mirSign P) (predIn x) = nx_9_18 P x := by
  simp only [nx_9_18, mir_6, mir_9, mir_18, in_dt, sgM]
  try ring
theorem p_nx_10_18 : nx_10_18 (sgM Spec.mirSign P) (predIn x) = -nx_10_18 P x := by
  simp only [nx_10_18, mir_10, mir_18, sgM]
  try ring
theorem p_nx_11_18 : nx_11_18 (sgM Spec.mirSign P) (predIn x) = nx_11_18 P x := by
  simp only [nx_11_18, mir_11, mir_18, sgM]
  try ring
theorem p_nx_12_18 : nx_12_18 (sgM Spec.mirSign P) (predIn x) = -nx_12_18 P x := by
  simp only [nx_12_18, mir_12, mir_18, sgM]
  try ring
theorem p_nx_13_18 : nx_13_18 (sgM Spec.mirSign P) (predIn x) = nx_13_18 P x := by
  simp only [nx_13_18, mir_13, mir_18, sgM]
  try ring
theorem p_nx_14_18 : nx_14_18 (sgM Spec.mirSign P) (predIn x) = -nx_14_18 P x := by
  simp only [nx_14_18, mir_14, mir_18, sgM]
  try ring
theorem p_nx_15_18 : nx_15_18 (sgM Spec.mirSign P) (predIn x) = nx_15_18 P x := by
  simp only [nx_15_18, mir_15, mir_18, sgM]
  try ring
theorem p_nx_16_18 : nx_16_18 (sgM Spec.mirSign P) (predIn x) = nx_16_18 P x := by
  simp only [nx_16_18, mir_16, mir_18, sgM]
  try ring
theorem p_nx_17_18 : nx_17_18 (sgM Spec.mirSign P) (predIn x) = -nx_17_18 P x := by
  simp only [nx_17_18, mir_17, mir_18, sgM]
  try ring
theorem p_nx_18_18 : nx_18_18 (sgM Spec.mirSign P) (predIn x) = nx_18_18 P x := by
  simp only [nx_18_18, mir_18, sgM]
  try ring
theorem p_nx_0_19 : nx_0_19 (sgM Spec.mirSign P) (predIn x) = nx_0_19 P x := by
  simp only [nx_0_19, p_PS6, p_PS7, p_PS9, p_PS11, p_PS12, p_PS13, mir_0, mir_1, mir_2, mir_3, mir_10, mir_11, mir_12, mir_19, sgM]
  try ring
theorem p_nx_1_19 : nx_1_19 (sgM Spec.mirSign P) (predIn x) = -nx_1_19 P x := by
  simp only [nx_1_19, p_PS7, p_PS9, p_PS11, p_PS12, p_PS13, p_PS34, mir_0, mir_1, mir_2, mir_3, mir_10, mir_11, mir_12, mir_19, sgM]
  try ring
theorem p_nx_2_19 : nx_2_19 (sgM Spec.mirSign P) (predIn x) = nx_2_19 P x := by
  simp only [nx_2_19, p_PS6, p_PS9, p_PS11, p_PS12, p_PS13, p_PS34, mir_0, mir_1, mir_2, mir_3, mir_10, mir_11, mir_12, mir_19, sgM]
  try ring
theorem p_nx_3_19 : nx_3_19 (sgM Spec.mirSign P) (predIn x) = -nx_3_19 P x := by
  simp only [nx_3_19, p_PS6, p_PS7, p_PS11, p_PS12, p_PS13, p_PS34, mir_0, mir_1, mir_2, mir_3, mir_10, mir_11, mir_12, mir_19, sgM]
  try ring
theorem p_nx_4_19 : nx_4_19 (sgM Spec.mirSign P) (predIn x) = nx_4_19 P x := by
  simp only [nx_4_19, p_PS44, p_PS60, p_PS62, p_PS72, p_PS74, p_PS139, p_PS140, mir_0, mir_1, mir_2, mir_3, mir_4, mir_13, mir_14, mir_15, mir_19, sgM]
  try ring
theorem p_nx_5_19 : nx_5_19 (sgM Spec.mirSign P) (predIn x) = -nx_5_19 P x := by
  simp only [nx_5_19, p_PS60, p_PS62, p_PS65, p_PS72, p_PS74, p_PS160, p_PS162, mir_0, mir_1, mir_2, mir_3, mir_5, mir_13, mir_14, mir_15, mir_19, sgM]
  try ring
theorem p_nx_6_19 : nx_6_19 (sgM Spec.mirSign P) (predIn x) = nx_6_19 P x := by
  simp only [nx_6_19, p_PS60, p_PS62, p_PS70, p_PS72, p_PS74, p_PS165, p_PS166, mir_0, mir_1, mir_2, mir_3, mir_6, mir_13, mir_14, mir_15, mir_19, sgM]
  try ring
theorem p_nx_7_19 : nx_7_19 (sgM Spec.mirSign P) (predIn x) = nx_7_19 P x := by
  simp only [nx_7_19, mir_4, mir_7, mir_19, in_dt, sgM]
  try ring
theorem p_nx_8_19 : nx_8_19 (sgM Spec.mirSign P) (predIn x) = -nx_8_19 P x := by
  simp only [nx_8_19, mir_5, mir_8, mir_19, in_dt, sgM]
  try ring
theorem p_nx_9_19 : nx_9_19 (sgM Spec.mirSign P) (predIn x) = nx_9_19 P x := by
  simp only [nx_9_19, mir_6, mir_9, mir_19, in_dt, sgM]
  try ring
theorem p_nx_10_19 : nx_10_19 (sgM Spec.mirSign P) (predIn x) = -nx_10_19 P x := by
  simp only [nx_10_19, mir_10, mir_19, sgM]
  try ring
theorem p_nx_11_19 : nx_11_19 (sgM Spec.mirSign P) (predIn x) = nx_11_19 P x := by
  simp only [nx_11_19, mir_11, mir_19, sgM]
  try ring
theorem p_nx_12_19 : nx_12_19 (sgM Spec.mirSign P) (predIn x) = -nx_12_19 P x := by
  simp only [nx_12_19, mir_12, mir_19, sgM]
  try ring
theorem p_nx_13_19 : nx_13_19 (sgM Spec.mirSign P) (predIn x) = nx_13_19 P x := by
  simp only [nx_13_19, mir_13, mir_19, sgM]
  try ring
theorem p_nx_14_19 : nx_14_19 (sgM Spec.mirSign P) (predIn x) = -nx_14_19 P x := by
  simp only [nx_14_19, mir_14, mir_19, sgM]
  try ring
theorem p_nx_15_19 : nx_15_19 (sgM Spec.mirSign P) (predIn x) = nx_15_19 P x := by
  simp only [nx_15_19, mir_15, mir_19, sgM]
  try ring
theorem p_nx_16_19 : nx_16_19 (sgM Spec.mirSign P) (predIn x) = nx_16_19 P x := by
  simp only [nx_16_19, mir_16, mir_19, sgM]
  try ring
theorem p_nx_17_19 : nx_17_19 (sgM Spec.mirSign P) (predIn x) = -nx_17_19 P x := by
  simp only [nx_17_19, mir_17, mir_19, sgM]
  try ring
theorem p_nx_18_19 : nx_18_19 (sgM Spec.mirSign P) (predIn x) = nx_18_19 P x := by
  simp only [nx_18_19, mir_18, mir_19, sgM]
  try ring
theorem p_nx_19_19 : nx_19_19 (sgM Spec.mirSign P) (predIn x) = nx_19_19 P x := by
  simp only [nx_19_19, mir_19, sgM]
  try ring
theorem p_nx_0_20 : nx_0_20 (sgM Spec.mirSign P) (predIn x) = -nx_0_20 P x := by
  simp only [nx_0_20, p_PS6, p_PS7, p_PS9, p_PS11, p_PS12, p_PS13, mir_0, mir_1, mir_2, mir_3, mir_10, mir_11, mir_12, mir_20, sgM]
  try ring
theorem p_nx_1_20 : nx_1_20 (sgM Spec.mirSign P) (predIn x) = nx_1_20 P x := by
  simp only [nx_1_20, p_PS7, p_PS9, p_PS11, p_PS12, p_PS13, p_PS34, mir_0, mir_1, mir_2, mir_3, mir_10, mir_11, mir_12, mir_20, sgM]
  try ring
theorem p_nx_2_20 : nx_2_20 (sgM Spec.mirSign P) (predIn x) = -nx_2_20 P x := by
  simp only [nx_2_20, p_PS6, p_PS9, p_PS11, p_PS12, p_PS13, p_PS34, mir_0, mir_1, mir_2, mir_3, mir_10, mir_11, mir_12, mir_20, sgM]
  try ring
theorem p_nx_3_20 : nx_3_20 (sgM Spec.mirSign P) (predIn x) = nx_3_20 P x := by
  simp only [nx_3_20, p_PS6, p_PS7, p_PS11, p_PS12, p_PS13, p_PS34, mir_0, mir_1, mir_2, mir_3, mir_10, mir_11, mir_12, mir_20, sgM]
  try ring
theorem p_nx_4_20 : nx_4_20 (sgM Spec.mirSign P) (predIn x) = -nx_4_20 P x := by
  simp only [nx_4_20, p_PS44, p_PS60, p_PS62, p_PS72, p_PS74, p_PS139, p_PS140, mir_0, mir_1, mir_2, mir_3, mir_4, mir_13, mir_14, mir_15, mir_20, sgM]
  try ring
theorem p_nx_5_20 : nx_5_20 (sgM Spec.mirSign P) (predIn x) = nx_5_20 P x := by
  simp only [nx_5_20, p_PS60, p_PS62, p_PS65, p_PS72, p_PS74, p_PS160, p_PS162, mir_0, mir_1, mir_2, mir_3, mir_5, mir_13, mir_14, mir_15, mir_20, sgM]
  try ring
theorem p_nx_6_20 : nx_6_20 (sgM Spec.mirSign P) (predIn x) = -nx_6_20 P x := by
  simp only [nx_6_20, p_PS60, p_PS62, p_PS70, p_PS72, p_PS74, p_PS165, p_PS166, mir_0, mir_1, mir_2, mir_3, mir_6, mir_13, mir_14, mir_15, mir_20, sgM]
  try ring
theorem p_nx_7_20 : nx_7_20 (sgM Spec.mirSign P) (predIn x) = -nx_7_20 P x := by
  simp only [nx_7_20, mir_4, mir_7, mir_20, in_dt, sgM]
  try ring
theorem p_nx_8_20 : nx_8_20 (sgM Spec.mirSign P) (predIn x) = nx_8_20 P x := by
  simp only [nx_8_20, mir_5, mir_8, mir_20, in_dt, sgM]
  try ring
theorem p_nx_9_20 : nx_9_20 (sgM Spec.mirSign P) (predIn x) = -nx_9_20 P x := by
  simp only [nx_9_20, mir_6, mir_9, mir_20, in_dt, sgM]
  try ring
theorem p_nx_10_20 : nx_10_20 (sgM Spec.mirSign P) (predIn x) = nx_10_20 P x := by
  simp only [nx_10_20, mir_10, mir_20, sgM]
  try ring
theorem p_nx_11_20 : nx_11_20 (sgM Spec.mirSign P) (predIn x) = -nx_11_20 P x := by
  simp only [nx_11_20, mir_11, mir_20, sgM]
  try ring
theorem p_nx_12_20 : nx_12_20 (sgM Spec.mirSign P) (predIn x) = nx_12_20 P x := by
  simp only [nx_12_20, mir_12, mir_20, sgM]
  try ring
theorem p_nx_13_20 : nx_13_20 (sgM Spec.mirSign P) (predIn x) = -nx_13_20 P x := by
  simp only [nx_13_20, mir_13, mir_20, sgM]
  try ring
theorem p_nx_14_20 : nx_14_20 (sgM Spec.mirSign P) (predIn x) = nx_14_20 P x := by
  simp only [nx_14_20, mir_14, mir_20, sgM]
  try ring
theorem p_nx_15_20 : nx_15_20 (sgM Spec.mirSign P) (predIn x) = -nx_15_20 P x := by
  simp only [nx_15_20, mir_15, mir_20, sgM]
  try ring
theorem p_nx_16_20 : nx_16_20 (sgM Spec.mirSign P) (predIn x) = -nx_16_20 P x := by
  simp only [nx_16_20, mir_16, mir_20, sgM]
  try ring
theorem p_nx_17_20 : nx_17_20 (sgM Spec.mirSign P) (predIn x) = nx_17_20 P x := by
  simp only [nx_17_20, mir_17, mir_20, sgM]
  try ring
theorem p_nx_18_20 : nx_18_20 (sgM Spec.mirSign P) (predIn x) = -nx_18_20 P x := by
  simp only [nx_18_20, mir_18, mir_20, sgM]
  try ring
theorem p_nx_19_20 : nx_19_20 (sgM Spec.mirSign P) (predIn x) = -nx_19_20 P x := by
  simp only [nx_19_20, mir_19, mir_20, sgM]
  try ring
theorem p_nx_20_20 : nx_20_20 (sgM Spec.mirSign P) (predIn x) = nx_20_20 P x := by
  simp only [nx_20_20, mir_20, sgM]
  try ring
theorem p_nx_0_21 : nx_0_21 (sgM Spec.mirSign P) (predIn x) = nx_0_21 P x := by
  simp only [nx_0_21, p_PS6, p_PS7, p_PS9, p_PS11, p_PS12, p_PS13, mir_0, mir_1, mir_2, mir_3, mir_10, mir_11, mir_12, mir_21, sgM]
  try ring
theorem p_nx_1_21 : nx_1_21 (sgM Spec.mirSign P) (predIn x) = -nx_1_21 P x := by
  simp only [nx_1_21, p_PS7, p_PS9, p_PS11, p_PS12, p_PS13, p_PS34, mir_0, mir_1, mir_2, mir_3, mir_10, mir_11, mir_12, mir_21, sgM]
  try ring
theorem p_nx_2_21 : nx_2_21 (sgM Spec.mirSign P) (predIn x) = nx_2_21 P x := by
  simp only [nx_2_21, p_PS6, p_PS9, p_PS11, p_PS12, p_PS13, p_PS34, mir_0, mir_1, mir_2, mir_3, mir_10, mir_11, mir_12, mir_21, sgM]
  try ring
theorem p_nx_3_21 : nx_3_21 (sgM Spec.mirSign P) (predIn x) = -nx_3_21 P x := by
  simp only [nx_3_21, p_PS6, p_PS7, p_PS11, p_PS12, p_PS13, p_PS34, mir_0, mir_1, mir_2, mir_3, mir_10, mir_11, mir_12, mir_21, sgM]
  try ring
theorem p_nx_4_21 : nx_4_21 (sgM Spec.mirSign P) (predIn x) = nx_4_21 P x := by
  simp only [nx_4_21, p_PS44, p_PS60, p_PS62, p_PS72, p_PS74, p_PS139, p_PS140, mir_0, mir_1, mir_2, mir_3, mir_4, mir_13, mir_14, mir_15, mir_21, sgM]
  try ring
theorem p_nx_5_21 : nx_5_21 (sgM Spec.mirSign P) (predIn x) = -nx_5_21 P x := by
  simp only [nx_5_21, p_PS60, p_PS62, p_PS65, p_PS72, p_PS74, p_PS160, p_PS162, mir_0, mir_1, mir_2, mir_3, mir_5, mir_13, mir_14, mir_15, mir_21, sgM]
  try ring
theorem p_nx_6_21 : nx_6_21 (sgM Spec.mirSign P) (predIn x) = nx_6_21 P x := by
  simp only [nx_6_21, p_PS60, p_PS62, p_PS70, p_PS72, p_PS74, p_PS165, p_PS166, mir_0, mir_1, mir_2, mir_3, mir_6, mir_13, mir_14, mir_15, mir_21, sgM]
  try ring
theorem p_nx_7_21 : nx_7_21 (sgM Spec.mirSign P) (predIn x) = nx_7_21 P x := by
  simp only [nx_7_21, mir_4, mir_7, mir_21, in_dt, sgM]
  try ring
theorem p_nx_8_21 : nx_8_21 (sgM Spec.mirSign P) (predIn x) = -nx_8_21 P x := by
  simp only [nx_8_21, mir_5, mir_8, mir_21, in_dt, sgM]
  try ring
theorem p_nx_9_21 : nx_9_21 (sgM Spec.mirSign P) (predIn x) = nx_9_21 P x := by
  simp only [nx_9_21, mir_6, mir_9, mir_21, in_dt, sgM]
  try ring
theorem p_nx_10_21 : nx_10_21 (sgM Spec.mirSign P) (predIn x) = -nx_10_21 P x := by
  simp only [nx_10_21, mir_10, mir_21, sgM]
  try ring
theorem p_nx_11_21 : nx_11_21 (sgM Spec.mirSign P) (predIn x) = nx_11_21 P x := by
  simp only [nx_11_21, mir_11, mir_21, sgM]
  try ring
theorem p_nx_12_21 : nx_12_21 (sgM Spec.mirSign P) (predIn x) = -nx_12_21 P x := by
  simp only [nx_12_21, mir_12, mir_21, sgM]
  try ring
theorem p_nx_13_21 : nx_13_21 (sgM Spec.mirSign P) (predIn x) = nx_13_21 P x := by
  simp only [nx_13_21, mir_13, mir_21, sgM]
  try ring
theorem p_nx_14_21 : nx_14_21 (sgM Spec.mirSign P) (predIn x) = -nx_14_21 P x := by
  simp only [nx_14_21, mir_14, mir_21, sgM]
  try ring
theorem p_nx_15_21 : nx_15_21 (sgM Spec.mirSign P) (predIn x) = nx_15_21 P x := by
  simp only [nx_15_21, mir_15, mir_21, sgM]
  try ring
theorem p_nx_16_21 : nx_16_21 (sgM Spec.mirSign P) (predIn x) = nx_16_21 P x := by
  simp only [nx_16_21, mir_16, mir_21, sgM]
  try ring
theorem p_nx_17_21 : nx_17_21 (sgM Spec.mirSign P) (predIn x) = -nx_17_21 P x := by
  simp only [nx_17_21, mir_17, mir_21, sgM]
  try ring
theorem p_nx_18_21 : nx_18_21 (sgM Spec.mirSign P) (predIn x) = nx_18_21 P x := by
  simp only [nx_18_21, mir_18, mir_21, sgM]
  try ring
theorem p_nx_19_21 : nx_19_21 (sgM Spec.mirSign P) (predIn x) = nx_19_21 P x := by
  simp only [nx_19_21, mir_19, mir_21, sgM]
  try ring
theorem p_nx_20_21 : nx_20_21 (sgM Spec.mirSign P) (predIn x) = -nx_20_21 P x := by
  simp only [nx_20_21, mir_20, mir_21, sgM]
  try ring
theorem p_nx_21_21 : nx_21_21 (sgM Spec.mirSign P) (predIn x) = nx_21_21 P x := by
  simp only [nx_21_21, mir_21, sgM]
  try ring
theorem p_nx_0_22 : nx_0_22 (sgM Spec.mirSign P) (predIn x) = nx_0_22 P x := by
  simp only [nx_0_22, p_PS6, p_PS7, p_PS9, p_PS11, p_PS12, p_PS13, mir_0, mir_1, mir_2, mir_3, mir_10, mir_11, mir_12, mir_22, sgM]
  try ring
theorem p_nx_1_22 : nx_1_22 (sgM Spec.mirSign P) (predIn x) = -nx_1_22 P x := by
  simp only [nx_1_22, p_PS7, p_PS9, p_PS11, p_PS12, p_PS13, p_PS34, mir_0, mir_1, mir_2, mir_3, mir_10, mir_11, mir_12, mir_22, sgM]
  try ring
theorem p_nx_2_22 : nx_2_22 (sgM Spec.mirSign P) (predIn x) = nx_2_22 P x := by
  simp only [nx_2_22, p_PS6, p_PS9, p_PS11, p_PS12, p_PS13, p_PS34, mir_0, mir_1, mir_2, mir_3, mir_10, mir_11, mir_12, mir_22, sgM]
  try ring
theorem p_nx_3_22 : nx_3_22 (sgM Spec.mirSign P) (predIn x) = -nx_3_22 P x := by
  simp only [nx_3_22, p_PS6, p_PS7, p_PS11, p_PS12, p_PS13, p_PS34, mir_0, mir_1, mir_2, mir_3, mir_10, mir_11, mir_12, mir_22, sgM]
  try ring
theorem p_nx_4_22 : nx_4_22 (sgM Spec.mirSign P) (predIn x) = nx_4_22 P x := by
  simp only [nx_4_22, p_PS44, p_PS60, p_PS62, p_PS72, p_PS74, p_PS139, p_PS140, mir_0, mir_1, mir_2, mir_3, mir_4, mir_13, mir_14, mir_15, mir_22, sgM]
  try ring
theorem p_nx_5_22 : nx_5_22 (sgM Spec.mirSign P) (predIn x) = -nx_5_22 P x := by
  simp only [nx_5_22, p_PS60, p_PS62, p_PS65, p_PS72, p_PS74, p_PS160, p_PS162, mir_0, mir_1, mir_2, mir_3, mir_5, mir_13, mir_14, mir_15, mir_22, sgM]
  try ring
theorem p_nx_6_22 : nx_6_22 (sgM Spec.mirSign P) (predIn x) = nx_6_22 P x := by
  simp only [nx_6_22, p_PS60, p_PS62, p_PS70, p_PS72, p_PS74, p_PS165, p_PS166, mir_0, mir_1, mir_2, mir_3, mir_6, mir_13, mir_14, mir_15, mir_22, sgM]
  try ring
theorem p_nx_7_22 : nx_7_22 (sgM Spec.mirSign P) (predIn x) = nx_7_22 P x := by
  simp only [nx_7_22, mir_4, mir_7, mir_22, in_dt, sgM]
  try ring
theorem p_nx_8_22 : nx_8_22 (sgM Spec.mirSign P) (predIn x) = -nx_8_22 P x := by
  simp only [nx_8_22, mir_5, mir_8, mir_22, in_dt, sgM]
  try ring
theorem p_nx_9_22 : nx_9_22 (sgM Spec.mirSign P) (predIn x) = nx_9_22 P x := by
  simp only [nx_9_22, mir_6, mir_9, mir_22, in_dt, sgM]
  try ring
theorem p_nx_10_22 : nx_10_22 (sgM Spec.mirSign P) (predIn x) = -nx_10_22 P x := by
  simp only [nx_10_22, mir_10, mir_22, sgM]
  try ring
theorem p_nx_11_22 : nx_11_22 (sgM Spec.mirSign P) (predIn x) = nx_11_22 P x := by
  simp only [nx_11_22, mir_11, mir_22, sgM]
  try ring
theorem p_nx_12_22 : nx_12_22 (sgM Spec.mirSign P) (predIn x) = -nx_12_22 P x := by
  simp only [nx_12_22, mir_12, mir_22, sgM]
  try ring
theorem p_nx_13_22 : nx_13_22 (sgM Spec.mirSign P) (predIn x) = nx_13_22 P x := by
  simp only [nx_13_22, mir_13, mir_22, sgM]
  try ring
theorem p_nx_14_22 : nx_14_22 (sgM Spec.mirSign P) (predIn x) = -nx_14_22 P x := by
  simp only [nx_14_22, mir_14, mir_22, sgM]
  try ring
theorem p_nx_15_22 : nx_15_22 (sgM Spec.mirSign P) (predIn x) = nx_15_22 P x := by
  simp only [nx_15_22, mir_15, mir_22, sgM]
  try ring
theorem p_nx_16_22 : nx_16_22 (sgM Spec.mirSign P) (predIn x) = nx_16_22 P x := by
  simp only [nx_16_22, mir_16, mir_22, sgM]
  try ring
theorem p_nx_17_22 : nx_17_22 (sgM Spec.mirSign P) (predIn x) = -nx_17_22 P x := by
  simp only [nx_17_22, mir_17, mir_22, sgM]
  try ring
theorem p_nx_18_22 : nx_18_22 (sgM Spec.mirSign P) (predIn x) = nx_18_22 P x := by
  simp only [nx_18_22, mir_18, mir_22, sgM]
  try ring
theorem p_nx_19_22 : nx_19_22 (sgM Spec.mirSign P) (predIn x) = nx_19_22 P x := by
  simp only [nx_19_22, mir_19, mir_22, sgM]
  try ring
theorem p_nx_20_22 : nx_20_22 (sgM Spec.mirSign P) (predIn x) = -nx_20_22 P x := by
  simp only [nx_20_22, mir_20, mir_22, sgM]
  try ring
theorem p_nx_21_22 : nx_21_22 (sgM Spec.mirSign P) (predIn x) = nx_21_22 P x := by
  simp only [nx_21_22, mir_21, mir_22, sgM]
  try ring
theorem p_nx_22_22 : nx_22_22 (sgM Spec.mirSign P) (predIn x) = nx_22_22 P x := by
  simp only [nx_22_22, mir_22, sgM]
  try ring
theorem p_nx_0_23 : nx_0_23 (sgM Spec.mirSign P) (predIn x) = -nx_0_23 P x := by
  simp only [nx_0_23, p_PS6, p_PS7, p_PS9, p_PS11, p_PS12, p_PS13, mir_0, mir_1, mir_2, mir_3, mir_10, mir_11, mir_12, mir_23, sgM]
  try ring
theorem p_nx_1_23 : nx_1_23 (sgM Spec.mirSign P) (predIn x) = nx_1_23 P x := by
  simp only [nx_1_23, p_PS7, p_PS9, p_PS11, p_PS12, p_PS13, p_PS34, mir_0, mir_1, mir_2, mir_3, mir_10, mir_11, mir_12, mir_23, sgM]
  try ring
theorem p_nx_2_23 : nx_2_23 (sgM Spec.mirSign P) (predIn x) = -nx_2_23 P x := by
  simp only [nx_2_23, p_PS6, p_PS9, p_PS11, p_PS12, p_PS13, p_PS34, mir_0, mir_1, mir_2, mir_3, mir_10, mir_11, mir_12, mir_23, sgM]
  try ring
theorem p_nx_3_23 : nx_3_23 (sgM Spec.mirSign P) (predIn x) = nx_3_23 P x := by
  simp only [nx_3_23, p_PS6, p_PS7, p_PS11, p_PS12, p_PS13, p_PS34, mir_0, mir_1, mir_2, mir_3, mir_10, mir_11, mir_12, mir_23, sgM]
  try ring
theorem p_nx_4_23 : nx_4_23 (sgM Spec.mirSign P) (predIn x) = -nx_4_23 P x := by
  simp only [nx_4_23, p_PS44, p_PS60, p_PS62, p_PS72, p_PS74, p_PS139, p_PS140, mir_0, mir_1, mir_2, mir_3, mir_4, mir_13, mir_14, mir_15, mir_23, sgM]
  try ring
theorem p_nx_5_23 : nx_5_23 (sgM Spec.mirSign P) (predIn x) = nx_5_23 P x := by
  simp only [nx_5_23, p_PS60, p_PS62, p_PS65, p_PS72, p_PS74, p_PS160, p_PS162, mir_0, mir_1, mir_2, mir_3, mir_5, mir_13, mir_14, mir_15, mir_23, sgM]
  try ring
theorem p_nx_6_23 : nx_6_23 (sgM Spec.mirSign P) (predIn x) = -nx_6_23 P x := by
  simp only [nx_6_23, p_PS60, p_PS62, p_PS70, p_PS72, p_PS74, p_PS165, p_PS166, mir_0, mir_1, mir_2, mir_3, mir_6, mir_13, mir_14, mir_15, mir_23, sgM]
  try ring
theorem p_nx_7_23 : nx_7_23 (sgM Spec.mirSign P) (predIn x) = -nx_7_23 P x := by
  simp only [nx_7_23, mir_4, mir_7, mir_23, in_dt, sgM]
  try ring
theorem p_nx_8_23 : nx_8_23 (sgM Spec.mirSign P) (predIn x) = nx_8_23 P x := by
  simp only [nx_8_23, mir_5, mir_8, mir_23, in_dt, sgM]
  try ring
theorem p_nx_9_23 : nx_9_23 (sgM Spec.mirSign P) (predIn x) = -nx_9_23 P x := by
  simp only [nx_9_23, mir_6, mir_9, mir_23, in_dt, sgM]
  try ring
theorem p_nx_10_23 : nx_10_23 (sgM Spec.mirSign P) (predIn x) = nx_10_23 P x := by
  simp only [nx_10_23, mir_10, mir_23, sgM]
  try ring
theorem p_nx_11_23 : nx_11_23 (sgM Spec.mirSign P) (predIn x) = -nx_11_23 P x := by
  simp only [nx_11_23, mir_11, mir_23, sgM]
  try ring
theorem p_nx_12_23 : nx_12_23 (sgM Spec.mirSign P) (predIn x) = nx_12_23 P x := by
  simp only [nx_12_23, mir_12, mir_23, sgM]
  try ring
theorem p_nx_13_23 : nx_13_23 (sgM Spec.mirSign P) (predIn x) = -nx_13_23 P x := by
  simp only [nx_13_23, mir_13, mir_23, sgM]
  try ring
theorem p_nx_14_23 : nx_14_23 (sgM Spec.mirSign P) (predIn x) = nx_14_23 P x := by
  simp only [nx_14_23, mir_14, mir_23, sgM]
  try ring
theorem p_nx_15_23 : nx_15_23 (sgM Spec.mirSign P) (predIn x) = -nx_15_23 P x := by
  simp only [nx_15_23, mir_15, mir_23, sgM]
  try ring
theorem p_nx_16_23 : nx_16_23 (sgM Spec.mirSign P) (predIn x) = -nx_16_23 P x := by
  simp only [nx_16_23, mir_16, mir_23, sgM]
  try ring
theorem p_nx_17_23 : nx_17_23 (sgM Spec.mirSign P) (predIn x) = nx_17_23 P x := by
  simp only [nx_17_23, mir_17, mir_23, sgM]
  try ring
theorem p_nx_18_23 : nx_18_23 (sgM Spec.mirSign P) (predIn x) = -nx_18_23 P x := by
  simp only [nx_18_23, mir_18, mir_23, sgM]
  try ring
theorem p_nx_19_23 : nx_19_23 (sgM Spec.mirSign P) (predIn x) = -nx_19_23 P x := by
  simp only [nx_19_23, mir_19, mir_23, sgM]
  try ring
theorem p_nx_20_23 : nx_20_23 (sgM Spec.mirSign P) (predIn x) = nx_20_23 P x := by
  simp only [nx_20_23, mir_20, mir_23, sgM]
  try ring
theorem p_nx_21_23 : nx_21_23 (sgM Spec.mirSign P) (predIn x) = -nx_21_23 P x := by
  simp only [nx_21_23, mir_21, mir_23, sgM]
  try ring
theorem p_nx_22_23 : nx_22_23 (sgM Spec.mirSign P) (predIn x) = -nx_22_23 P x := by
  simp only [nx_22_23, mir_22, mir_23, sgM]
  try ring
theorem p_nx_23_23 : nx_23_23 (sgM Spec.mirSign P) (predIn x) = nx_23_23 P x := by
  simp only [nx_23_23, mir_23, sgM]
  try ring
theorem p_c0 (i : Fin N) : nxCol0 (sgM Spec.mirSign P) (predIn x) i.val = Spec.mirSign i * Spec.mirSign 0 * nxCol0 P x i.val := by
  fin_cases i
  · show nx_0_0 (sgM Spec.mirSign P) (predIn x) = Spec.mirSign 0 * Spec.mirSign 0 * nx_0_0 P x; rw [p_nx_0_0, mir_0]; ring
  · exact (mul_zero _).symm
  · exact (mul_zero _).symm
  · exact (mul_zero _).symm
  · exact (mul_zero _).symm
  · exact (mul_zero _).symm
  · exact (mul_zero _).symm
  · exact (mul_zero _).symm
  · exact (mul_zero _).symm
  · exact (mul_zero _).symm
  · exact (mul_zero _).symm
  · exact (mul_zero _).symm
  · exact (mul_zero _).symm
  · exact (mul_zero _).symm
  · exact (mul_zero _).symm
  · exact (mul_zero _).symm
  · exact (mul_zero _).symm
  · exact (mul_zero _).symm
  · exact (mul_zero _).symm
  · exact (mul_zero _).symm
  · exact (mul_zero _).symm
  · exact (mul_zero _).symm
  · exact (mul_zero _).symm
  · exact (mul_zero _).symm
theorem p_c1 (i : Fin N) : nxCol1 (sgM Spec.mirSign P) (predIn x) i.val = Spec.mirSign i * Spec.mirSign 1 * nxCol1 P x i.val := by
  fin_cases i
  · show nx_0_1 (sgM Spec.mirSign P) (predIn x) = Spec.mirSign 0 * Spec.mirSign 1 * nx_0_1 P x; rw [p_nx_0_1, mir_0, mir_1]; ring
  · show nx_1_1 (sgM Spec.mirSign P) (predIn x) = Spec.mirSign 1 * Spec.mirSign 1 * nx_1_1 P x; rw [p_nx_1_1, mir_1]; ring
  · exact (mul_zero _).symm
  · exact (mul_zero _).symm
  · exact (mul_zero _).symm
  · exact (mul_zero _).symm
  · exact (mul_zero _).symm
  · exact (mul_zero _).symm
  · exact (mul_zero _).symm
  · exact (mul_zero _).symm
  · exact (mul_zero _).symm
  · exact (mul_zero _).symm
  · exact (mul_zero _).symm
  · exact (mul_zero _).symm
  · exact (mul_zero _).symm
  · exact (mul_zero _).symm
  · exact (mul_zero _).symm
  · exact (mul_zero _).symm
  · exact (mul_zero _).symm
  · exact (mul_zero _).symm
  · exact (mul_zero _).symm
  · exact (mul_zero _).symm
  · exact (mul_zero _).symm
  · exact (mul_zero _).symm
theorem p_c2 (i : Fin N) : nxCol2 (sgM Spec.mirSign P) (predIn x) i.val = Spec.mirSign i * Spec.mirSign 2 * nxCol2 P x i.val := by
  fin_cases i
  · show nx_0_2 (sgM Spec.mirSign P) (predIn x) = Spec.mirSign 0 * Spec.mirSign 2 * nx_0_2 P x; rw [p_nx_0_2, mir_0, mir_2]; ring
  · show nx_1_2 (sgM Spec.mirSign P) (predIn x) = Spec.mirSign 1 * Spec.mirSign 2 * nx_1_2 P x; rw [p_nx_1_2, mir_1, mir_2]; ring
  · show nx_2_2 (sgM Spec.mirSign P) (predIn x) = Spec.mirSign 2 * Spec.mirSign 2 * nx_2_2 P x; rw [p_nx_2_2, mir_2]; ring
  · exact (mul_zero _).symm
  · exact (mul_zero _).symm
  · exact (mul_zero _).symm
  · exact (mul_zero _).symm
  · exact (mul_zero _).symm
  · exact (mul_zero _).symm
  · exact (mul_zero _).symm
  · exact (mul_zero _).symm
  · exact (mul_zero _).symm
  · exact (mul_zero _).symm
  · exact (mul_zero _).symm
  · exact (mul_zero _).symm
  · exact (mul_zero _).symm
  · exact (mul_zero _).symm
  · exact (mul_zero _).symm
  · exact (mul_zero _).symm
  · exact (mul_zero _).symm
  · exact (mul_zero _).symm
  · exact (mul_zero _).symm
  · exact (mul_zero _).symm
  · exact (mul_zero _).symm
theorem p_c3 (i : Fin N) : nxCol3 (sgM Spec.mirSign P) (predIn x) i.val = Spec.mirSign i * Spec.mirSign 3 * nxCol3 P x i.val := by
  fin_cases i
  · show nx_0_3 (sgM Spec.mirSign P) (predIn x) = Spec.mirSign 0 * Spec.mirSign 3 * nx_0_3 P x; rw [p_nx_0_3, mir_0, mir_3]; ring
  · show nx_1_3 (sgM Spec.mirSign P) (predIn x) = Spec.mirSign 1 * Spec.mirSign 3 * nx_1_3 P x; rw [p_nx_1_3, mir_1, mir_3]; ring
  · show nx_2_3 (sgM Spec.mirSign P) (predIn x) = Spec.mirSign 2 * Spec.mirSign 3 * nx_2_3 P x; rw [p_nx_2_3, mir_2, mir_3]; ring
  · show nx_3_3 (sgM Spec.mirSign P) (predIn x) = Spec.mirSign 3 * Spec.mirSign 3 * nx_3_3 P x; rw [p_nx_3_3, mir_3]; ring
  · exact (mul_zero _).symm
  · exact (mul_zero _).symm
  · exact (mul_zero _).symm
  · exact (mul_zero _).symm
  · exact (mul_zero _).symm
  · exact (mul_zero _).symm
  · exact (mul_zero _).symm
  · exact (mul_zero _).symm
  · exact (mul_zero _).symm
  · exact (mul_zero _).symm
  · exact (mul_zero _).symm
  · exact (mul_zero _).symm
  · exact (mul_zero _).symm
  · exact (mul_zero _).symm
  · exact (mul_zero _).symm
  · exact (mul_zero _).symm
  · exact (mul_zero _).symm
  · exact (mul_zero _).symm
  · exact (mul_zero _).symm
  · exact (mul_zero _).symm
theorem p_c4 (i : Fin N) : nxCol4 (sgM Spec.mirSign P) (predIn x) i.val = Spec.mirSign i * Spec.mirSign 4 * nxCol4 P x i.val := by
  fin_cases i
  · show nx_0_4 (sgM Spec.mirSign P) (predIn x) = Spec.mirSign 0 * Spec.mirSign 4 * nx_0_4 P x; rw [p_nx_0_4, mir_0, mir_4]; ring
  · show nx_1_4 (sgM Spec.mirSign P) (predIn x) = Spec.mirSign 1 * Spec.mirSign 4 * nx_1_4 P x; rw [p_nx_1_4, mir_1, mir_4]; ring
  · show nx_2_4 (sgM Spec.mirSign P) (predIn x) = Spec.mirSign 2 * Spec.mirSign 4 * nx_2_4 P x; rw [p_nx_2_4, mir_2, mir_4]; ring
  · show nx_3_4 (sgM Spec.mirSign P) (predIn x) = Spec.mirSign 3 * Spec.mirSign 4 * nx_3_4 P x; rw [p_nx_3_4, mir_3, mir_4]; ring
  · show nx_4_4 (sgM Spec.mirSign P) (predIn x) = Spec.mirSign 4 * Spec.mirSign 4 * nx_4_4 P x; rw [p_nx_4_4, mir_4]; ring
  · exact (mul_zero _).symm
  · exact (mul_zero _).symm
  · exact (mul_zero _).symm
  · exact (mul_zero _).symm
  · exact (mul_zero _).symm
  · exact (mul_zero _).symm
  · exact (mul_zero _).symm
  · exact (mul_zero _).symm
  · exact (mul_zero _).symm
  · exact (mul_zero _).symm
  · exact (mul_zero _).symm
  · exact (mul_zero _).symm
  · exact (mul_zero _).symm
  · exact (mul_zero _).symm
  · exact (mul_zero _).symm
  · exact (mul_zero _).symm
  · exact (mul_zero _).symm
  · exact (mul_zero _).symm
  · exact (mul_zero _).symm
theorem p_c5 (i : Fin N) : nxCol5 (sgM Spec.mirSign P) (predIn x) i.val = Spec.mirSign i * Spec.mirSign 5 * nxCol5 P x i.val := by
  fin_cases i
  · show nx_0_5 (sgM Spec.mirSign P) (predIn x) = Spec.mirSign 0 * Spec.mirSign 5 * nx_0_5 P x; rw [p_nx_0_5, mir_0, mir_5]; ring
  · show nx_1_5 (sgM Spec.mirSign P) (predIn x) = Spec.mirSign 1 * Spec.mirSign 5 * nx_1_5 P x; rw [p_nx_1_5, mir_1, mir_5]; ring
  · show nx_2_5 (sgM Spec.mirSign P) (predIn x) = Spec.mirSign 2 * Spec.mirSign 5 * nx_2_5 P x; rw [p_nx_2_5, mir_2, mir_5]; ring
  · show nx_3_5 (sgM Spec.mirSign P) (predIn x) = Spec.mirSign 3 * Spec.mirSign 5 * nx_3_5 P x; rw [p_nx_3_5, mir_3, mir_5]; ring
  · show nx_4_5 (sgM Spec.mirSign P) (predIn x) = Spec.mirSign 4 * Spec.mirSign 5 * nx_4_5 P x; rw [p_nx_4_5, mir_4, mir_5]; ring
  · show nx_5_5 (sgM Spec.mirSign P) (predIn x) = Spec.mirSign 5 * Spec.mirSign 5 * nx_5_5 P x; rw [p_nx_5_5, mir_5]; ring
  · exact (mul_zero _).symm
  · exact (mul_zero _).symm
  · exact (mul_zero _).symm
  · exact (mul_zero _).symm
  · exact (mul_zero _).symm
  · exact (mul_zero _).symm
  · exact (mul_zero _).symm
  · exact (mul_zero _).symm
  · exact (mul_zero _).symm
  · exact (mul_zero _).symm
  · exact (mul_zero _).symm
  · exact (mul_zero _).symm
  · exact (mul_zero _).symm
  · exact (mul_zero _).symm
  · exact (mul_zero _).symm
  · exact (mul_zero _).symm
  · exact (mul_zero _).symm
  · exact (mul_zero _).symm
theorem p_c6 (i : Fin N) : nxCol6 (sgM Spec.mirSign P) (predIn x) i.val = Spec.mirSign i * Spec.mirSign 6 * nxCol6 P x i.val := by
  fin_cases i
  · show nx_0_6 (sgM Spec.mirSign P) (predIn x) = Spec.mirSign 0 * Spec.mirSign 6 * nx_0_6 P x; rw [p_nx_0_6, mir_0, mir_6]; ring
  · show nx_1_6 (sgM Spec.mirSign P) (predIn x) = Spec.mirSign 1 * Spec.mirSign 6 * nx_1_6 P x; rw [p_nx_1_6, mir_1, mir_6]; ring
  · show nx_2_6 (sgM Spec.mirSign P) (predIn x) = Spec.mirSign 2 * Spec.mirSign 6 * nx_2_6 P x; rw [p_nx_2_6, mir_2, mir_6]; ring
  · show nx_3_6 (sgM Spec.mirSign P) (predIn x) = Spec.mirSign 3 * Spec.mirSign 6 * nx_3_6 P x; rw [p_nx_3_6, mir_3, mir_6]; ring
  · show nx_4_6 (sgM Spec.mirSign P) (predIn x) = Spec.mirSign 4 * Spec.mirSign 6 * nx_4_6 P x; rw [p_nx_4_6, mir_4, mir_6]; ring
  · show nx_5_6 (sgM Spec.mirSign P) (predIn x) = Spec.mirSign 5 * Spec.mirSign 6 * nx_5_6 P x; rw [p_nx_5_6, mir_5, mir_6]; ring
  · show nx_6_6 (sgM Spec.mirSign P) (predIn x) = Spec.mirSign 6 * Spec.mirSign 6 * nx_6_6 P x; rw [p_nx_6_6, mir_6]; ring
  · exact (mul_zero _).symm
  · exact (mul_zero _).symm
  · exact (mul_zero _).symm
  · exact (mul_zero _).symm
  · exact (mul_zero _).symm
  · exact (mul_zero _).symm
  · exact (mul_zero _).symm
  · exact (mul_zero _).symm
  · exact (mul_zero _).symm
  · exact (mul_zero _).symm
  · exact (mul_zero _).symm
  · exact (mul_zero _).symm
  · exact (mul_zero _).symm
  · exact (mul_zero _).symm
  · exact (mul_zero _).symm
  · exact (mul_zero _).symm
  · exact (mul_zero _).symm
theorem p_c7 (i : Fin N) : nxCol7 (sgM Spec.mirSign P) (predIn x) i.val = Spec.mirSign i * Spec.mirSign 7 * nxCol7 P x i.val := by
  fin_cases i
  · show nx_0_7 (sgM Spec.mirSign P) (predIn x) = Spec.mirSign 0 * Spec.mirSign 7 * nx_0_7 P x; rw [p_nx_0_7, mir_0, mir_7]; ring
  · show nx_1_7 (sgM Spec.mirSign P) (predIn x) = Spec.mirSign 1 * Spec.mirSign 7 * nx_1_7 P x; rw [p_nx_1_7, mir_1, mir_7]; ring
  · show nx_2_7 (sgM Spec.mirSign P) (predIn x) = Spec.mirSign 2 * Spec.mirSign 7 * nx_2_7 P x; rw [p_nx_2_7, mir_2, mir_7]; ring
  · show nx_3_7 (sgM Spec.mirSign P) (predIn x) = Spec.mirSign 3 * Spec.mirSign 7 * nx_3_7 P x; rw [p_nx_3_7, mir_3, mir_7]; ring
  · show nx_4_7 (sgM Spec.mirSign P) (predIn x) = Spec.mirSign 4 * Spec.mirSign 7 * nx_4_7 P x; rw [p_nx_4_7, mir_4, mir_7]; ring
  · show nx_5_7 (sgM Spec.mirSign P) (predIn x) = Spec.mirSign 5 * Spec.mirSign 7 * nx_5_7 P x; rw [p_nx_5_7, mir_5, mir_7]; ring
  · show nx_6_7 (sgM Spec.mirSign P) (predIn x) = Spec.mirSign 6 * Spec.mirSign 7 * nx_6_7 P x; rw [p_nx_6_7, mir_6, mir_7]; ring
  · show nx_7_7 (sgM Spec.mirSign P) (predIn x) = Spec.mirSign 7 * Spec.mirSign 7 * nx_7_7 P x; rw [p_nx_7_7, mir_7]; ring
  · exact (mul_zero _).symm
  · exact (mul_zero _).symm
  · exact (mul_zero _).symm
  · exact (mul_zero _).symm
  · exact (mul_zero _).symm
  · exact (mul_zero _).symm
  · exact (mul_zero _).symm
  · exact (mul_zero _).symm
  · exact (mul_zero _).symm
  · exact (mul_zero _).symm
  · exact (mul_zero _).symm
  · exact (mul_zero _).symm
  · exact (mul_zero _).symm
  · exact (mul_zero _).symm
  · exact (mul_zero _).symm
  · exact (mul_zero _).symm
theorem p_c8 (i : Fin N) : nxCol8 (sgM Spec.mirSign P) (predIn x) i.val = Spec.mirSign i * Spec.mirSign 8 * nxCol8 P x i.val := by
  fin_cases i
  · show nx_0_8 (sgM Spec.mirSign P) (predIn x) = Spec.mirSign 0 * Spec.mirSign 8 * nx_0_8 P x; rw [p_nx_0_8, mir_0, mir_8]; ring
  · show nx_1_8 (sgM Spec.mirSign P) (predIn x) = Spec.mirSign 1 * Spec.mirSign 8 * nx_1_8 P x; rw [p_nx_1_8, mir_1, mir_8]; ring
  · show nx_2_8 (sgM Spec.mirSign P) (predIn x) = Spec.mirSign 2 * Spec.mirSign 8 * nx_2_8 P x; rw [p_nx_2_8, mir_2, mir_8]; ring
  · show nx_3_8 (sgM Spec.mirSign P) (predIn x) = Spec.mirSign 3 * Spec.mirSign 8 * nx_3_8 P x; rw [p_nx_3_8, mir_3, mir_8]; ring
  · show nx_4_8 (sgM Spec.mirSign P) (predIn x) = Spec.mirSign 4 * Spec.mirSign 8 * nx_4_8 P x; rw [p_nx_4_8, mir_4, mir_8]; ring
  · show nx_5_8 (sgM Spec.mirSign P) (predIn x) = Spec.mirSign 5 * Spec.mirSign 8 * nx_5_8 P x; rw [p_nx_5_8, mir_5, mir_8]; ring
  · show nx_6_8 (sgM Spec.mirSign P) (predIn x) = Spec.mirSign 6 * Spec.mirSign 8 * nx_6_8 P x; rw [p_nx_6_8, mir_6, mir_8]; ring
  · show nx_7_8 (sgM Spec.mirSign P) (predIn x) = Spec.mirSign 7 * Spec.mirSign 8 * nx_7_8 P x; rw [p_nx_7_8, mir_7, mir_8]; ring
  · show nx_8_8 (sgM Spec.mirSign P) (predIn x) = Spec.mirSign 8 * Spec.mirSign 8 * nx_8_8 P x; rw [p_nx_8_8, mir_8]; ring
  · exact (mul_zero _).symm
  · exact (mul_zero _).symm
  · exact (mul_zero _).symm
  · exact (mul_zero _).symm
  · exact (mul_zero _).symm
  · exact (mul_zero _).symm
  · exact (mul_zero _).symm
  · exact (mul_zero _).symm
  · exact (mul_zero _).symm
  · exact (mul_zero _).symm
  · exact (mul_zero _).symm
  · exact (mul_zero _).symm
  · exact (mul_zero _).symm
  · exact (mul_zero _).symm
  · exact (mul_zero _).symm
theorem p_c9 (i : Fin N) : nxCol9 (sgM Spec.mirSign P) (predIn x) i.val = Spec.mirSign i * Spec.mirSign 9 * nxCol9 P x i.val := by
  fin_cases i
  · show nx_0_9 (sgM Spec.mirSign P) (predIn x) = Spec.mirSign 0 * Spec.mirSign 9 * nx_0_9 P x; rw [p_nx_0_9, mir_0, mir_9]; ring
  · show nx_1_9 (sgM Spec.mirSign P) (predIn x) = Spec.mirSign 1 * Spec.mirSign 9 * nx_1_9 P x; rw [p_nx_1_9, mir_1, mir_9]; ring
  · show nx_2_9 (sgM Spec.mirSign P) (predIn x) = Spec.mirSign 2 * Spec.mirSign 9 * nx_2_9 P x; rw [p_nx_2_9, mir_2, mir_9]; ring
  · show nx_3_9 (sgM Spec.mirSign P) (predIn x) = Spec.mirSign 3 * Spec.mirSign 9 * nx_3_9 P x; rw [p_nx_3_9, mir_3, mir_9]; ring
  · show nx_4_9 (sgM Spec.mirSign P) (predIn x) = Spec.mirSign 4 * Spec.mirSign 9 * nx_4_9 P x; rw [p_nx_4_9, mir_4, mir_9]; ring
  · show nx_5_9 (sgM Spec.mirSign P) (predIn x) = Spec.mirSign 5 * Spec.mirSign 9 * nx_5_9 P x; rw [p_nx_5_9, mir_5, mir_9]; ring
  · show nx_6_9 (sgM Spec.mirSign P) (predIn x) = Spec.mirSign 6 * Spec.mirSign 9 * nx_6_9 P x; rw [p_nx_6_9, mir_6, mir_9]; ring
  · show nx_7_9 (sgM Spec.mirSign P) (predIn x) = Spec.mirSign 7 * Spec.mirSign 9 * nx_7_9 P x; rw [p_nx_7_9, mir_7, mir_9]; ring
  · show nx_8_9 (sgM Spec.mirSign P) (predIn x) = Spec.mirSign 8 * Spec.mirSign 9 * nx_8_9 P x; rw [p_nx_8_9, mir_8, mir_9]; ring
  · show nx_9_9 (sgM Spec.mirSign P) (predIn x) = Spec.mirSign 9 * Spec.mirSign 9 * nx_9_9 P x; rw [p_nx_9_9, mir_9]; ring
  · exact (mul_zero _).symm
  · exact (mul_zero _).symm
  · exact (mul_zero _).symm
  · exact (mul_zero _).symm
  · exact (mul_zero _).symm
  · exact (mul_zero _).symm
  · exact (mul_zero _).symm
  · exact (mul_zero _).symm
  · exact (mul_zero _).symm
  · exact (mul_zero _).symm
  · exact (mul_zero _).symm
  · exact (mul_zero _).symm
  · exact (mul_zero _).symm
  · exact (mul_zero _).symm
theorem p_c10 (i : Fin N) : nxCol10 (sgM Spec.mirSign P) (predIn x) i.val = Spec.mirSign i * Spec.mirSign 10 * nxCol10 P x i.val := by
  fin_cases i
  · show nx_0_10 (sgM Spec.mirSign P) (predIn x) = Spec.mirSign 0 * Spec.mirSign 10 * nx_0_10 P x; rw [p_nx_0_10, mir_0, mir_10]; ring
  · show nx_1_10 (sgM Spec.mirSign P) (predIn x) = Spec.mirSign 1 * Spec.mirSign 10 * nx_1_10 P x; rw [p_nx_1_10, mir_1, mir_10]; ring
  · show nx_2_10 (sgM Spec.mirSign P) (predIn x) = Spec.mirSign 2 * Spec.mirSign 10 * nx_2_10 P x; rw [p_nx_2_10, mir_2, mir_10]; ring
  · show nx_3_10 (sgM Spec.mirSign P) (predIn x) = Spec.mirSign 3 * Spec.mirSign 10 * nx_3_10 P x; rw [p_nx_3_10, mir_3, mir_10]; ring
  · show nx_4_10 (sgM Spec.mirSign P) (predIn x) = Spec.mirSign 4 * Spec.mirSign 10 * nx_4_10 P x; rw [p_nx_4_10, mir_4, mir_10]; ring
  · show nx_5_10 (sgM Spec.mirSign P) (predIn x) = Spec.mirSign 5 * Spec.mirSign 10 * nx_5_10 P x; rw [p_nx_5_10, mir_5, mir_10]; ring
  · show nx_6_10 (sgM Spec.mirSign P) (predIn x) = Spec.mirSign 6 * Spec.mirSign 10 * nx_6_10 P x; rw [p_nx_6_10, mir_6, mir_10]; ring
  · show nx_7_10 (sgM Spec.mirSign P) (predIn x) = Spec.mirSign 7 * Spec.mirSign 10 * nx_7_10 P x; rw [p_nx_7_10, mir_7, mir_10]; ring
  · show nx_8_10 (sgM Spec.mirSign P) (predIn x) = Spec.mirSign 8 * Spec.mirSign 10 * nx_8_10 P x; rw [p_nx_8_10, mir_8, mir_10]; ring
  · show nx_9_10 (sgM Spec.mirSign P) (predIn x) = Spec.mirSign 9 * Spec.mirSign 10 * nx_9_10 P x; rw [p_nx_9_10, mir_9, mir_10]; ring
  · show nx_10_10 (sgM Spec.mirSign P) (predIn x) = Spec.mirSign 10 * Spec.mirSign 10 * nx_10_10 P x; rw [p_nx_10_10, mir_10]; ring
  · exact (mul_zero _).symm
  · exact (mul_zero _).symm
  · exact (mul_zero _).symm
  · exact (mul_zero _).symm
  · exact (mul_zero _).symm
  · exact (mul_zero _).symm
  · exact (mul_zero _).symm
  · exact (mul_zero _).symm
  · exact (mul_zero _).symm
  · exact (mul_zero _).symm
  · exact (mul_zero _).symm
  · exact (mul_zero _).symm
  · exact (mul_zero _).symm
theorem p_c11 (i : Fin N) : nxCol11 (sgM Spec.mirSign P) (predIn x) i.val = Spec.mirSign i * Spec.mirSign 11 * nxCol11 P x i.val := by
  fin_cases i
  · show nx_0_11 (sgM Spec.mirSign P) (predIn x) = Spec.mirSign 0 * Spec.mirSign 11 * nx_0_11 P x; rw [p_nx_0_11, mir_0, mir_11]; ring
  · show nx_1_11 (sgM Spec.mirSign P) (predIn x) = Spec.mirSign 1 * Spec.mirSign 11 * nx_1_11 P x; rw [p_nx_1_11, mir_1, mir_11]; ring
  · show nx_2_11 (sgM Spec.mirSign P) (predIn x) = Spec.mirSign 2 * Spec.mirSign 11 * nx_2_11 P x; rw [p_nx_2_11, mir_2, mir_11]; ring
  · show nx_3_11 (sgM Spec.mirSign P) (predIn x) = Spec.mirSign 3 * Spec.mirSign 11 * nx_3_11 P x; rw [p_nx_3_11, mir_3, mir_11]; ring
  · show nx_4_11 (sgM Spec.mirSign P) (predIn x) = Spec.mirSign 4 * Spec.mirSign 11 * nx_4_11 P x; rw [p_nx_4_11, mir_4, mir_11]; ring
  · show nx_5_11 (sgM Spec.mirSign P) (predIn x) = Spec.mirSign 5 * Spec.mirSign 11 * nx_5_11 P x; rw [p_nx_5_11, mir_5, mir_11]; ring
  · show nx_6_11 (sgM Spec.mirSign P) (predIn x) = Spec.mirSign 6 * Spec.mirSign 11 * nx_6_11 P x; rw [p_nx_6_11, mir_6, mir_11]; ring
  · show nx_7_11 (sgM Spec.mirSign P) (predIn x) = Spec.mirSign 7 * Spec.mirSign 11 * nx_7_11 P x; rw [p_nx_7_11, mir_7, mir_11]; ring
  · show nx_8_11 (sgM Spec.mirSign P) (predIn x) = Spec.mirSign 8 * Spec.mirSign 11 * nx_8_11 P x; rw [p_nx_8_11, mir_8, mir_11]; ring
  · show nx_9_11 (sgM Spec.mirSign P) (predIn x) = Spec.mirSign 9 * Spec.mirSign 11 * nx_9_11 P x; rw [p_nx_9_11, mir_9, mir_11]; ring
  · show nx_10_11 (sgM Spec.mirSign P) (predIn x) = Spec.mirSign 10 * Spec.mirSign 11 * nx_10_11 P x; rw [p_nx_10_11, mir_10, mir_11]; ring
  · show nx_11_11 (sgM Spec.mirSign P) (predIn x) = Spec.mirSign 11 * Spec.mirSign 11 * nx_11_11 P x; rw [p_nx_11_11, mir_11]; ring
  · exact (mul_zero _).symm
  · exact (mul_zero _).symm
  · exact (mul_zero _).symm
  · exact (mul_zero _).symm
  · exact (mul_zero _).symm
  · exact (mul_zero _).symm
  · exact (mul_zero _).symm
  · exact (mul_zero _).symm
  · exact (mul_zero _).symm
  · exact (mul_zero _).symm
  · exact (mul_zero _).symm
  · exact (mul_zero _).symm
theorem p_c12 (i : Fin N) : nxCol12 (sgM Spec.mirSign P) (predIn x) i.val = Spec.mirSign i * Spec.mirSign 12 * nxCol12 P x i.val := by
  fin_cases i
  · show nx_0_12 (sgM Spec.mirSign P) (predIn x) = Spec.mirSign 0 * Spec.mirSign 12 * nx_0_12 P x; rw [p_nx_0_12, mir_0, mir_12]; ring
  · show nx_1_12 (sgM Spec.mirSign P) (predIn x) = Spec.mirSign 1 * Spec.mirSign 12 * nx_1_12 P x; rw [p_nx_1_12, mir_1, mir_12]; ring
  · show nx_2_12 (sgM Spec.mirSign P) (predIn x) = Spec.mirSign 2 * Spec.mirSign 12 * nx_2_12 P x; rw [p_nx_2_12, mir_2, mir_12]; ring
  · show nx_3_12 (sgM Spec.mirSign P) (predIn x) = Spec.mirSign 3 * Spec.mirSign 12 * nx_3_12 P x; rw [p_nx_3_12, mir_3, mir_12]; ring
  · show nx_4_12 (sgM Spec.mirSign P) (predIn x) = Spec.mirSign 4 * Spec.mirSign 12 * nx_4_12 P x; rw [p_nx_4_12, mir_4, mir_12]; ring
  · show nx_5_12 (sgM Spec.mirSign P) (predIn x) = Spec.mirSign 5 * Spec.mirSign 12 * nx_5_12 P x; rw [p_nx_5_12, mir_5, mir_12]; ring
  · show nx_6_12 (sgM Spec.mirSign P) (predIn x) = Spec.mirSign 6 * Spec.mirSign 12 * nx_6_12 P x; rw [p_nx_6_12, mir_6, mir_12]; ring
  · show nx_7_12 (sgM Spec.mirSign P) (predIn x) = Spec.mirSign 7 * Spec.mirSign 12 * nx_7_12 P x; rw [p_nx_7_12, mir_7, mir_12]; ring
  · show nx_8_12 (sgM Spec.mirSign P) (predIn x) = Spec.mirSign 8 * Spec.mirSign 12 * nx_8_12 P x; rw [p_nx_8_12, mir_8, mir_12]; ring
  · show nx_9_12 (sgM Spec.mirSign P) (predIn x) = Spec.mirSign 9 * Spec.mirSign 12 * nx_9_12 P x; rw [p_nx_9_12, mir_9, mir_12]; ring
  · show nx_10_12 (sgM Spec.mirSign P) (predIn x) = Spec.mirSign 10 * Spec.mirSign 12 * nx_10_12 P x; rw [p_nx_10_12, mir_10, mir_12]; ring
  · show nx_11_12 (sgM Spec.mirSign P) (predIn x) = Spec.mirSign 11 * Spec.mirSign 12 * nx_11_12 P x; rw [p_nx_11_12, mir_11, mir_12]; ring
  · show nx_12_12 (sgM Spec.mirSign P) (predIn x) = Spec.mirSign 12 * Spec.mirSign 12 * nx_12_12 P x; rw [p_nx_12_12, mir_12]; ring
  · exact (mul_zero _).symm
  · exact (mul_zero _).symm
  · exact (mul_zero _).symm
  · exact (mul_zero _).symm
  · exact (mul_zero _).symm
  · exact (mul_zero _).symm
  · exact (mul_zero _).symm
  · exact (mul_zero _).symm
  · exact (mul_zero _).symm
  · exact (mul_zero _).symm
  · exact (mul_zero _).symm
theorem p_c13 (i : Fin N) : nxCol13 (sgM Spec.mirSign P) (predIn x) i.val = Spec.mirSign i * Spec.mirSign 13 * nxCol13 P x i.val := by
  fin_cases i
  · show nx_0_13 (sgM Spec.mirSign P) (predIn x) = Spec.mirSign 0 * Spec.mirSign 13 * nx_0_13 P x; rw [p_nx_0_13, mir_0, mir_13]; ring
  · show nx_1_13 (sgM Spec.mirSign P) (predIn x) = Spec.mirSign 1 * Spec.mirSign 13 * nx_1_13 P x; rw [p_nx_1_13, mir_1, mir_13]; ring
  · show nx_2_13 (sgM Spec.mirSign P) (predIn x) = Spec.mirSign 2 * Spec.mirSign 13 * nx_2_13 P x; rw [p_nx_2_13, mir_2, mir_13]; ring
  · show nx_3_13 (sgM Spec.mirSign P) (predIn x) = Spec.mirSign 3 * Spec.mirSign 13 * nx_3_13 P x; rw [p_nx_3_13, mir_3, mir_13]; ring
  · show nx_4_13 (sgM Spec.mirSign P) (predIn x) = Spec.mirSign 4 * Spec.mirSign 13 * nx_4_13 P x; rw [p_nx_4_13, mir_4, mir_13]; ring
  · show nx_5_13 (sgM Spec.mirSign P) (predIn x) = Spec.mirSign 5 * Spec.mirSign 13 * nx_5_13 P x; rw [p_nx_5_13, mir_5, mir_13]; ring
  · show nx_6_13 (sgM Spec.mirSign P) (predIn x) = Spec.mirSign 6 * Spec.mirSign 13 * nx_6_13 P x; rw [p_nx_6_13, mir_6, mir_13]; ring
  · show nx_7_13 (sgM Spec.mirSign P) (predIn x) = Spec.mirSign 7 * Spec.mirSign 13 * nx_7_13 P x; rw [p_nx_7_13, mir_7, mir_13]; ring
  · show nx_8_13 (sgM Spec.mirSign P) (predIn x) = Spec.mirSign 8 * Spec.mirSign 13 * nx_8_13 P x; rw [p_nx_8_13, mir_8, mir_13]; ring
  · show nx_9_13 (sgM Spec.mirSign P) (predIn x) = Spec.mirSign 9 * Spec.mirSign 13 * nx_9_13 P x; rw [p_nx_9_13, mir_9, mir_13]; ring
  · show nx_10_13 (sgM Spec.mirSign P) (predIn x) = Spec.mirSign 10 * Spec.mirSign 13 * nx_10_13 P x; rw [p_nx_10_13, mir_10, mir_13]; ring
  · show nx_11_13 (sgM Spec.mirSign P) (predIn x) = Spec.mirSign 11 * Spec.mirSign 13 * nx_11_13 P x; rw [p_nx_11_13, mir_11, mir_13]; ring
  · show nx_12_13 (sgM Spec.mirSign P) (predIn x) = Spec.mirSign 12 * Spec.mirSign 13 * nx_12_13 P x; rw [p_nx_12_13, mir_12, mir_13]; ring
  · show nx_13_13 (sgM Spec.mirSign P) (predIn x) = Spec.mirSign 13 * Spec.mirSign 13 * nx_13_13 P x; rw [p_nx_13_13, mir_13]; ring
  · exact (mul_zero _).symm
  · exact (mul_zero _).symm
  · exact (mul_zero _).symm
  · exact (mul_zero _).symm
  · exact (mul_zero _).symm
  · exact (mul_zero _).symm
  · exact (mul_zero _).symm
  · exact (mul_zero _).symm
  · exact (mul_zero _).symm
  · exact (mul_zero _).symm
theorem p_c14 (i : Fin N) : nxCol14 (sgM Spec.mirSign P) (predIn x) i.val = Spec.mirSign i * Spec.mirSign 14 * nxCol14 P x i.val := by
  fin_cases i
  · show nx_0_14 (sgM Spec.mirSign P) (predIn x) = Spec.mirSign 0 * Spec.mirSign 14 * nx_0_14 P x; rw [p_nx_0_14, mir_0, mir_14]; ring
  · show nx_1_14 (sgM Spec.mirSign P) (predIn x) = Spec.mirSign 1 * Spec.mirSign 14 * nx_1_14 P x; rw [p_nx_1_14, mir_1, mir_14]; ring
  · show nx_2_14 (sgM Spec.mirSign P) (predIn x) = Spec.mirSign 2 * Spec.mirSign 14 * nx_2_14 P x; rw [p_nx_2_14, mir_2, mir_14]; ring
  · show nx_3_14 (sgM Spec.mirSign P) (predIn x) = Spec.mirSign 3 * Spec.mirSign 14 * nx_3_14 P x; rw [p_nx_3_14, mir_3, mir_14]; ring
  · show nx_4_14 (sgM Spec.mirSign P) (predIn x) = Spec.mirSign 4 * Spec.mirSign 14 * nx_4_14 P x; rw [p_nx_4_14, mir_4, mir_14]; ring
  · show nx_5_14 (sgM Spec.mirSign P) (predIn x) = Spec.mirSign 5 * Spec.mirSign 14 * nx_5_14 P x; rw [p_nx_5_14, mir_5, mir_14]; ring
  · show nx_6_14 (sgM Spec.mirSign P) (predIn x) = Spec.mirSign 6 * Spec.mirSign 14 * nx_6_14 P x; rw [p_nx_6_14, mir_6, mir_14]; ring
  · show nx_7_14 (sgM Spec.mirSign P) (predIn x) = Spec.mirSign 7 * Spec.mirSign 14 * nx_7_14 P x; rw [p_nx_7_14, mir_7, mir_14]; ring
  · show nx_8_14 (sgM Spec.mirSign P) (predIn x) = Spec.mirSign 8 * Spec.mirSign 14 * nx_8_14 P x; rw [p_nx_8_14, mir_8, mir_14]; ring
  · show nx_9_14 (sgM Spec.mirSign P) (predIn x) = Spec.mirSign 9 * Spec.mirSign 14 * nx_9_14 P x; rw [p_nx_9_14, mir_9, mir_14]; ring
  · show nx_10_14 (sgM Spec.mirSign P) (predIn x) = Spec.mirSign 10 * Spec.mirSign 14 * nx_10_14 P x; rw [p_nx_10_14, mir_10, mir_14]; ring
  · show nx_11_14 (sgM Spec.mirSign P) (predIn x) = Spec.mirSign 11 * Spec.mirSign 14 * nx_11_14 P x; rw [p_nx_11_14, mir_11, mir_14]; ring
  · show nx_12_14 (sgM Spec.mirSign P) (predIn x) = Spec.mirSign 12 * Spec.mirSign 14 * nx_12_14 P x; rw [p_nx_12_14, mir_12, mir_14]; ring
  · show nx_13_14 (sgM Spec.mirSign P) (predIn x) = Spec.mirSign 13 * Spec.mirSign 14 * nx_13_14 P x; rw [p_nx_13_14, mir_13, mir_14]; ring
  · show nx_14_14 (sgM Spec.mirSign P) (predIn x) = Spec.mirSign 14 * Spec.mirSign 14 * nx_14_14 P x; rw [p_nx_14_14, mir_14]; ring
  · exact (mul_zero _).symm
  · exact (mul_zero _).symm
  · exact (mul_zero _).symm
  · exact (mul_zero _).symm
  · exact (mul_zero _).symm
  · exact (mul_zero _).symm
  · exact (mul_zero _).symm
  · exact (mul_zero _).symm
  · exact (mul_zero _).symm
theorem p_c15 (i : Fin N) : nxCol15 (sgM Spec.mirSign P) (predIn x) i.val = Spec.mirSign i * Spec.mirSign 15 * nxCol15 P x i.val := by
  fin_cases i
  · show nx_0_15 (sgM Spec.mirSign P) (predIn x) = Spec.mirSign 0 * Spec.mirSign 15 * nx_0_15 P x; rw [p_nx_0_15, mir_0, mir_15]; ring
  · show nx_1_15 (sgM Spec.mirSign P) (predIn x) = Spec.mirSign 1 * Spec.mirSign 15 * nx_1_15 P x; rw [p_nx_1_15, mir_1, mir_15]; ring
  · show nx_2_15 (sgM Spec.mirSign P) (predIn x) = Spec.mirSign 2 * Spec.mirSign 15 * nx_2_15 P x; rw [p_nx_2_15, mir_2, mir_15]; ring
  · show nx_3_15 (sgM Spec.mirSign P) (predIn x) = Spec.mirSign 3 * Spec.mirSign 15 * nx_3_15 P x; rw [p_nx_3_15, mir_3, mir_15]; ring
  · show nx_4_15 (sgM Spec.mirSign P) (predIn x) = Spec.mirSign 4 * Spec.mirSign 15 * nx_4_15 P x; rw [p_nx_4_15, mir_4, mir_15]; ring
  · show nx_5_15 (sgM Spec.mirSign P) (predIn x) = Spec.mirSign 5 * Spec.mirSign 15 * nx_5_15 P x; rw [p_nx_5_15, mir_5, mir_15]; ring
  · show nx_6_15 (sgM Spec.mirSign P) (predIn x) = Spec.mirSign 6 * Spec.mirSign 15 * nx_6_15 P x; rw [p_nx_6_15, mir_6, mir_15]; ring
  · show nx_7_15 (sgM Spec.mirSign P) (predIn x) = Spec.mirSign 7 * Spec.mirSign 15 * nx_7_15 P x; rw [p_nx_7_15, mir_7, mir_15]; ring
  · show nx_8_15 (sgM Spec.mirSign P) (predIn x) = Spec.mirSign 8 * Spec.mirSign 15 * nx_8_15 P x; rw [p_nx_8_15, mir_8, mir_15]; ring
  · show nx_9_15 (sgM Spec.mirSign P) (predIn x) = Spec.mirSign 9 * Spec.mirSign 15 * nx_9_15 P x; rw [p_nx_9_15, mir_9, mir_15]; ring
  · show nx_10_15 (sgM Spec.mirSign P) (predIn x) = Spec.mirSign 10 * Spec.mirSign 15 * nx_10_15 P x; rw [p_nx_10_15, mir_10, mir_15]; ring
  · show nx_11_15 (sgM Spec.mirSign P) (predIn x) = Spec.mirSign 11 * Spec.mirSign 15 * nx_11_15 P x; rw [p_nx_11_15, mir_11, mir_15]; ring
  · show nx_12_15 (sgM Spec.mirSign P) (predIn x) = Spec.mirSign 12 * Spec.mirSign 15 * nx_12_15 P x; rw [p_nx_12_15, mir_12, mir_15]; ring
  · show nx_13_15 (sgM Spec.mirSign P) (predIn x) = Spec.mirSign 13 * Spec.mirSign 15 * nx_13_15 P x; rw [p_nx_13_15, mir_13, mir_15]; ring
  · show nx_14_15 (sgM Spec.mirSign P) (predIn x) = Spec.mirSign 14 * Spec.mirSign 15 * nx_14_15 P x; rw [p_nx_14_15, mir_14, mir_15]; ring
  · show nx_15_15 (sgM Spec.mirSign P) (predIn x) = Spec.mirSign 15 * Spec.mirSign 15 * nx_15_15 P x; rw [p_nx_15_15, mir_15]; ring
  · exact (mul_zero _).symm
  · exact (mul_zero _).symm
  · exact (mul_zero _).symm
  · exact (mul_zero _).symm
  · exact (mul_zero _).symm
  · exact (mul_zero _).symm
  · exact (mul_zero _).symm
  · exact (mul_zero _).symm
theorem p_c16 (i : Fin N) : nxCol16 (sgM Spec.mirSign P) (predIn x) i.val = Spec.mirSign i * Spec.mirSign 16 * nxCol16 P x i.val := by
  fin_cases i
  · show nx_0_16 (sgM Spec.mirSign P) (predIn x) = Spec.mirSign 0 * Spec.mirSign 16 * nx_0_16 P x; rw [p_nx_0_16, mir_0, mir_16]; ring
  · show nx_1_16 (sgM Spec.mirSign P) (predIn x) = Spec.mirSign 1 * Spec.mirSign 16 * nx_1_16 P x; rw [p_nx_1_16, mir_1, mir_16]; ring
  · show nx_2_16 (sgM Spec.mirSign P) (predIn x) = Spec.mirSign 2 * Spec.mirSign 16 * nx_2_16 P x; rw [p_nx_2_16, mir_2, mir_16]; ring
  · show nx_3_16 (sgM Spec.mirSign P) (predIn x) = Spec.mirSign 3 * Spec.mirSign 16 * nx_3_16 P x; rw [p_nx_3_16, mir_3, mir_16]; ring
  · show nx_4_16 (sgM Spec.mirSign P) (predIn x) = Spec.mirSign 4 * Spec.mirSign 16 * nx_4_16 P x; rw [p_nx_4_16, mir_4, mir_16]; ring
  · show nx_5_16 (sgM Spec.mirSign P) (predIn x) = Spec.mirSign 5 * Spec.mirSign 16 * nx_5_16 P x; rw [p_nx_5_16, mir_5, mir_16]; ring
  · show nx_6_16 (sgM Spec.mirSign P) (predIn x) = Spec.mirSign 6 * Spec.mirSign 16 * nx_6_16 P x; rw [p_nx_6_16, mir_6, mir_16]; ring
  · show nx_7_16 (sgM Spec.mirSign P) (predIn x) = Spec.mirSign 7 * Spec.mirSign 16 * nx_7_16 P x; rw [p_nx_7_16, mir_7, mir_16]; ring
  · show nx_8_16 (sgM Spec.mirSign P) (predIn x) = Spec.mirSign 8 * Spec.mirSign 16 * nx_8_16 P x; rw [p_nx_8_16, mir_8, mir_16]; ring
  · show nx_9_16 (sgM Spec.mirSign P) (predIn x) = Spec.mirSign 9 * Spec.mirSign 16 * nx_9_16 P x; rw [p_nx_9_16, mir_9, mir_16]; ring
  · show nx_10_16 (sgM Spec.mirSign P) (predIn x) = Spec.mirSign 10 * Spec.mirSign 16 * nx_10_16 P x; rw [p_nx_10_16, mir_10, mir_16]; ring
  · show nx_11_16 (sgM Spec.mirSign P) (predIn x) = Spec.mirSign 11 * Spec.mirSign 16 * nx_11_16 P x; rw [p_nx_11_16, mir_11, mir_16]; ring
  · show nx_12_16 (sgM Spec.mirSign P) (predIn x) = Spec.mirSign 12 * Spec.mirSign 16 * nx_12_16 P x; rw [p_nx_12_16, mir_12, mir_16]; ring
  · show nx_13_16 (sgM Spec.mirSign P) (predIn x) = Spec.mirSign 13 * Spec.mirSign 16 * nx_13_16 P x; rw [p_nx_13_16, mir_13, mir_16]; ring
  · show nx_14_16 (sgM Spec.mirSign P) (predIn x) = Spec.mirSign 14 * Spec.mirSign 16 * nx_14_16 P x; rw [p_nx_14_16, mir_14, mir_16]; ring
  · show nx_15_16 (sgM Spec.mirSign P) (predIn x) = Spec.mirSign 15 * Spec.mirSign 16 * nx_15_16 P x; rw [p_nx_15_16, mir_15, mir_16]; ring
  · show nx_16_16 (sgM Spec.mirSign P) (predIn x) = Spec.mirSign 16 * Spec.mirSign 16 * nx_16_16 P x; rw [p_nx_16_16, mir_16]; ring
  · exact (mul_zero _).symm
  · exact (mul_zero _).symm
  · exact (mul_zero _).symm
  · exact (mul_zero _).symm
  · exact (mul_zero _).symm
  · exact (mul_zero _).symm
  · exact (mul_zero _).symm
theorem p_c17 (i : Fin N) : nxCol17 (sgM Spec.mirSign P) (predIn x) i.val = Spec.mirSign i * Spec.mirSign 17 * nxCol17 P x i.val := by
  fin_cases i
  · show nx_0_17 (sgM Spec.mirSign P) (predIn x) = Spec.mirSign 0 * Spec.mirSign 17 * nx_0_17 P x; rw [p_nx_0_17, mir_0, mir_17]; ring
  · show nx_1_17 (sgM Spec.mirSign P) (predIn x) = Spec.mirSign 1 * Spec.mirSign 17 * nx_1_17 P x; rw [p_nx_1_17, mir_1, mir_17]; ring
  · show nx_2_17 (sgM Spec.mirSign P) (predIn x) = Spec.mirSign 2 * Spec.mirSign 17 * nx_2_17 P x; rw [p_nx_2_17, mir_2, mir_17]; ring
  · show nx_3_17 (sgM Spec.mirSign P) (predIn x) = Spec.mirSign 3 * Spec.mirSign 17 * nx_3_17 P x; rw [p_nx_3_17, mir_3, mir_17]; ring
  · show nx_4_17 (sgM Spec.mirSign P) (predIn x) = Spec.mirSign 4 * Spec.mirSign 17 * nx_4_17 P x; rw [p_nx_4_17, mir_4, mir_17]; ring
  · show nx_5_17 (sgM Spec.mirSign P) (predIn x) = Spec.mirSign 5 * Spec.mirSign 17 * nx_5_17 P x; rw [p_nx_5_17, mir_5, mir_17]; ring
  · show nx_6_17 (sgM Spec.mirSign P) (predIn x) = Spec.mirSign 6 * Spec.mirSign 17 * nx_6_17 P x; rw [p_nx_6_17, mir_6, mir_17]; ring
  · show nx_7_17 (sgM Spec.mirSign P) (predIn x) = Spec.mirSign 7 * Spec.mirSign 17 * nx_7_17 P x; rw [p_nx_7_17, mir_7, mir_17]; ring
  · show nx_8_17 (sgM Spec.mirSign P) (predIn x) = Spec.mirSign 8 * Spec.mirSign 17 * nx_8_17 P x; rw [p_nx_8_17, mir_8, mir_17]; ring
  · show nx_9_17 (sgM Spec.mirSign P) (predIn x) = Spec.mirSign 9 * Spec.mirSign 17 * nx_9_17 P x; rw [p_nx_9_17, mir_9, mir_17]; ring
  · show nx_10_17 (sgM Spec.mirSign P) (predIn x) = Spec.mirSign 10 * Spec.mirSign 17 * nx_10_17 P x; rw [p_nx_10_17, mir_10, mir_17]; ring
  · show nx_11_17 (sgM Spec.mirSign P) (predIn x) = Spec.mirSign 11 * Spec.mirSign 17 * nx_11_17 P x; rw [p_nx_11_17, mir_11, mir_17]; ring
  · show nx_12_17 (sgM Spec.mirSign P) (predIn x) = Spec.mirSign 12 * Spec.mirSign 17 * nx_12_17 P x; rw [p_nx_12_17, mir_12, mir_17]; ring
  · show nx_13_17 (sgM Spec.mirSign P) (predIn x) = Spec.mirSign 13 * Spec.mirSign 17 * nx_13_17 P x; rw [p_nx_13_17, mir_13, mir_17]; ring
  · show nx_14_17 (sgM Spec.mirSign P) (predIn x) = Spec.mirSign 14 * Spec.mirSign 17 * nx_14_17 P x; rw [p_nx_14_17, mir_14, mir_17]; ring
  · show nx_15_17 (sgM Spec.mirSign P) (predIn x) = Spec.mirSign 15 * Spec.mirSign 17 * nx_15_17 P x; rw [p_nx_15_17, mir_15, mir_17]; ring
  · show nx_16_17 (sgM Spec.mirSign P) (predIn x) = Spec.mirSign 16 * Spec.mirSign 17 * nx_16_17 P x; rw [p_nx_16_17, mir_16, mir_17]; ring
  · show nx_17_17 (sgM Spec.mirSign P) (predIn x) = Spec.mirSign 17 * Spec.mirSign 17 * nx_17_17 P x; rw [p_nx_17_17, mir_17]; ring
  · exact (mul_zero _).symm
  · exact (mul_zero _).symm
  · exact (mul_zero _).symm
  · exact (mul_zero _).symm
  · exact (mul_zero _).symm
  · exact (mul_zero _).symm
theorem p_c18 (i : Fin N) : nxCol18 (sgM Spec.mirSign P) (predIn x) i.val = Spec.mirSign i * Spec.mirSign 18 * nxCol18 P x i.val := by
  fin_cases i
  · show nx_0_18 (sgM Spec.mirSign P) (predIn x) = Spec.mirSign 0 * Spec.mirSign 18 * nx_0_18 P x; rw [p_nx_0_18, mir_0, mir_18]; ring
  · show nx_1_18 (sgM Spec.mirSign P) (predIn x) = Spec.mirSign 1 * Spec.mirSign 18 * nx_1_18 P x; rw [p_nx_1_18, mir_1, mir_18]; ring
  · show nx_2_18 (sgM Spec.mirSign P) (predIn x) = Spec.mirSign 2 * Spec.mirSign 18 * nx_2_18 P x; rw [p_nx_2_18, mir_2, mir_18]; ring
  · show nx_3_18 (sgM Spec.mirSign P) (predIn x) = Spec.mirSign 3 * Spec.mirSign 18 * nx_3_18 P x; rw [p_nx_3_18, mir_3, mir_18]; ring
  · show nx_4_18 (sgM Spec.mirSign P) (predIn x) = Spec.mirSign 4 * Spec.mirSign 18 * nx_4_18 P x; rw [p_nx_4_18, mir_4, mir_18]; ring
  · show nx_5_18 (sgM Spec.mirSign P) (predIn x) = Spec.mirSign 5 * Spec.mirSign 18 * nx_5_18 P x; rw [p_nx_5_18, mir_5, mir_18]; ring
  · show nx_6_18 (sgM Spec.mirSign P) (predIn x) = Spec.mirSign 6 * Spec.mirSign 18 * nx_6_18 P x; rw [p_nx_6_18, mir_6, mir_18]; ring
  · show nx_7_18 (sgM Spec.mirSign P) (predIn x) = Spec.mirSign 7 * Spec.mirSign 18 * nx_7_18 P x; rw [p_nx_7_18, mir_7, mir_18]; ring
  · show nx_8_18 (sgM Spec.mirSign P) (predIn x) = Spec.mirSign 8 * Spec.mirSign 18 * nx_8_18 P x; rw [p_nx_8_18, mir_8, mir_18]; ring
  · show nx_9_18 (sgM Spec.mirSign P) (predIn x) = Spec.mirSign 9 * Spec.mirSign 18 * nx_9_18 P x; rw [p_nx_9_18, mir_9, mir_18]; ring
  · show nx_10_18 (sgM Spec.mirSign P) (predIn x) = Spec.mirSign 10 * Spec.mirSign 18 * nx_10_18 P x; rw [p_nx_10_18, mir_10, mir_18]; ring
  · show nx_11_18 (sgM Spec.mirSign P) (predIn x) = Spec.mirSign 11 * Spec.mirSign 18 * nx_11_18 P x; rw [p_nx_11_18, mir_11, mir_18]; ring
  · show nx_12_18 (sgM Spec.mirSign P) (predIn x) = Spec.mirSign 12 * Spec.mirSign 18 * nx_12_18 P x; rw [p_nx_12_18, mir_12, mir_18]; ring
  · show nx_13_18 (sgM Spec.mirSign P) (predIn x) = Spec.mirSign 13 * Spec.mirSign 18 * nx_13_18 P x; rw [p_nx_13_18, mir_13, mir_18]; ring
  · show nx_14_18 (sgM Spec.mirSign P) (predIn x) = Spec.mirSign 14 * Spec.mirSign 18 * nx_14_18 P x; rw [p_nx_14_18, mir_14, mir_18]; ring
  · show nx_15_18 (sgM Spec.mirSign P) (predIn x) = Spec.mirSign 15 * Spec.mirSign 18 * nx_15_18 P x; rw [p_nx_15_18, mir_15, mir_18]; ring
  · show nx_16_18 (sgM Spec.mirSign P) (predIn x) = Spec.mirSign 16 * Spec.mirSign 18 * nx_16_18 P x; rw [p_nx_16_18, mir_16, mir_18]; ring
  · show nx_17_18 (sgM Spec.mirSign P) (predIn x) = Spec.mirSign 17 * Spec.mirSign 18 * nx_17_18 P x; rw [p_nx_17_18, mir_17, mir_18]; ring
  · show nx_18_18 (sgM Spec.mirSign P) (predIn x) = Spec.mirSign 18 * Spec.mirSign 18 * nx_18_18 P x; rw [p_nx_18_18, mir_18]; ring
  · exact (mul_zero _).symm
  · exact (mul_zero _).symm
  · exact (mul_zero _).symm
  · exact (mul_zero _).symm
  · exact (mul_zero _).symm
theorem p_c19 (i : Fin N) : nxCol19 (sgM Spec.mirSign P) (predIn x) i.val = Spec.mirSign i * Spec.mirSign 19 * nxCol19 P x i.val := by
  fin_cases i
  · show nx_0_19 (sgM Spec.mirSign P) (predIn x) = Spec.mirSign 0 * Spec.mirSign 19 * nx_0_19 P x; rw [p_nx_0_19, mir_0, mir_19]; ring
  · show nx_1_19 (sgM Spec.mirSign P) (predIn x) = Spec.mirSign 1 * Spec.mirSign 19 * nx_1_19 P x; rw [p_nx_1_19, mir_1, mir_19]; ring
  · show nx_2_19 (sgM Spec.mirSign P) (predIn x) = Spec.mirSign 2 * Spec.mirSign 19 * nx_2_19 P x; rw [p_nx_2_19, mir_2, mir_19]; ring
  · show nx_3_19 (sgM Spec.mirSign P) (predIn x) = Spec.mirSign 3 * Spec.mirSign 19 * nx_3_19 P x; rw [p_nx_3_19, mir_3, mir_19]; ring
  · show nx_4_19 (sgM Spec.mirSign P) (predIn x) = Spec.mirSign 4 * Spec.mirSign 19 * nx_4_19 P x; rw [p_nx_4_19, mir_4, mir_19]; ring
  · show nx_5_19 (sgM Spec.mirSign P) (predIn x) = Spec.mirSign 5 * Spec.mirSign 19 * nx_5_19 P x; rw [p_nx_5_19, mir_5, mir_19]; ring
  · show nx_6_19 (sgM Spec.mirSign P) (predIn x) = Spec.mirSign 6 * Spec.mirSign 19 * nx_6_19 P x; rw [p_nx_6_19, mir_6, mir_19]; ring
  · show nx_7_19 (sgM Spec.mirSign P) (predIn x) = Spec.mirSign 7 * Spec.mirSign 19 * nx_7_19 P x; rw [p_nx_7_19, mir_7, mir_19]; ring
  · show nx_8_19 (sgM Spec.mirSign P) (predIn x) = Spec.mirSign 8 * Spec.mirSign 19 * nx_8_19 P x; rw [p_nx_8_19, mir_8, mir_19]; ring
  · show nx_9_19 (sgM Spec.mirSign P) (predIn x) = Spec.mirSign 9 * Spec.mirSign 19 * nx_9_19 P x; rw [p_nx_9_19, mir_9, mir_19]; ring
  · show nx_10_19 (sgM Spec.mirSign P) (predIn x) = Spec.mirSign 10 * Spec.mirSign 19 * nx_10_19 P x; rw [p_nx_10_19, mir_10, mir_19]; ring
  · show nx_11_19 (sgM Spec.mirSign P) (predIn x) = Spec.mirSign 11 * Spec.mirSign 19 * nx_11_19 P x; rw [p_nx_11_19, mir_11, mir_19]; ring
  · show nx_12_19 (sgM Spec.mirSign P) (predIn x) = Spec.mirSign 12 * Spec.mirSign 19 * nx_12_19 P x; rw [p_nx_12_19, mir_12, mir_19]; ring
  · show nx_13_19 (sgM Spec.mirSign P) (predIn x) = Spec.mirSign 13 * Spec.mirSign 19 * nx_13_19 P x; rw [p_nx_13_19, mir_13, mir_19]; ring
  · show nx_14_19 (sgM Spec.mirSign P) (predIn x) = Spec.mirSign 14 * Spec.mirSign 19 * nx_14_19 P x; rw [p_nx_14_19, mir_14, mir_19]; ring
  · show nx_15_19 (sgM Spec.mirSign P) (predIn x) = Spec.mirSign 15 * Spec.mirSign 19 * nx_15_19 P x; rw [p_nx_15_19, mir_15, mir_19]; ring
  · show nx_16_19 (sgM Spec.mirSign P) (predIn x) = Spec.mirSign 16 * Spec.mirSign 19 * nx_16_19 P x; rw [p_nx_16_19, mir_16, mir_19]; ring
  · show nx_17_19 (sgM Spec.mirSign P) (predIn x) = Spec.mirSign 17 * Spec.mirSign 19 * nx_17_19 P x; rw [p_nx_17_19, mir_17, mir_19]; ring
  · show nx_18_19 (sgM Spec.mirSign P) (predIn x) = Spec.mirSign 18 * Spec.mirSign 19 * nx_18_19 P x; rw [p_nx_18_19, mir_18, mir_19]; ring
  · show nx_19_19 (sgM Spec.mirSign P) (predIn x) = Spec.mirSign 19 * Spec.mirSign 19 * nx_19_19 P x; rw [p_nx_19_19, mir_19]; ring
  · exact (mul_zero _).symm
  · exact (mul_zero _).symm
  · exact (mul_zero _).symm
  · exact (mul_zero _).symm
theorem p_c20 (i : Fin N) : nxCol20 (sgM Spec.mirSign P) (predIn x) i.val = Spec.mirSign i * Spec.mirSign 20 * nxCol20 P x i.val := by
  fin_cases i
  · show nx_0_20 (sgM Spec.mirSign P) (predIn x) = Spec.mirSign 0 * Spec.mirSign 20 * nx_0_20 P x; rw [p_nx_0_20, mir_0, mir_20]; ring
  · show nx_1_20 (sgM Spec.mirSign P) (predIn x) = Spec.mirSign 1 * Spec.mirSign 20 * nx_1_20 P x; rw [p_nx_1_20, mir_1, mir_20]; ring
  · show nx_2_20 (sgM Spec.mirSign P) (predIn x) = Spec.mirSign 2 * Spec.mirSign 20 * nx_2_20 P x; rw [p_nx_2_20, mir_2, mir_20]; ring
  · show nx_3_20 (sgM Spec.mirSign P) (predIn x) = Spec.mirSign 3 * Spec.mirSign 20 * nx_3_20 P x; rw [p_nx_3_20, mir_3, mir_20]; ring
  · show nx_4_20 (sgM Spec.mirSign P) (predIn x) = Spec.mirSign 4 * Spec.mirSign 20 * nx_4_20 P x; rw [p_nx_4_20, mir_4, mir_20]; ring
  · show nx_5_20 (sgM Spec.mirSign P) (predIn x) = Spec.mirSign 5 * Spec.mirSign 20 * nx_5_20 P x; rw [p_nx_5_20, mir_5, mir_20]; ring
  · show nx_6_20 (sgM Spec.mirSign P) (predIn x) = Spec.mirSign 6 * Spec.mirSign 20 * nx_6_20 P x; rw [p_nx_6_20, mir_6, mir_20]; ring
  · show nx_7_20 (sgM Spec.mirSign P) (predIn x) = Spec.mirSign 7 * Spec.mirSign 20 * nx_7_20 P x; rw [p_nx_7_20, mir_7, mir_20]; ring
  · show nx_8_20 (sgM Spec.mirSign P) (predIn x) = Spec.mirSign 8 * Spec.mirSign 20 * nx_8_20 P x; rw [p_nx_8_20, mir_8, mir_20]; ring
  · show nx_9_20 (sgM Spec.mirSign P) (predIn x) = Spec.mirSign 9 * Spec.mirSign 20 * nx_9_20 P x; rw [p_nx_9_20, mir_9, mir_20]; ring
  · show nx_10_20 (sgM Spec.mirSign P) (predIn x) = Spec.mirSign 10 * Spec.mirSign 20 * nx_10_20 P x; rw [p_nx_10_20, mir_10, mir_20]; ring
  · show nx_11_20 (sgM Spec.mirSign P) (predIn x) = Spec.mirSign 11 * Spec.mirSign 20 * nx_11_20 P x; rw [p_nx_11_20, mir_11, mir_20]; ring
  · show nx_12_20 (sgM Spec.mirSign P) (predIn x) = Spec.mirSign 12 * Spec.mirSign 20 * nx_12_20 P x; rw [p_nx_12_20, mir_12, mir_20]; ring
  · show nx_13_20 (sgM Spec.mirSign P) (predIn x) = Spec.mirSign 13 * Spec.mirSign 20 * nx_13_20 P x; rw [p_nx_13_20, mir_13, mir_20]; ring
  · show nx_14_20 (sgM Spec.mirSign P) (predIn x) = Spec.mirSign 14 * Spec.mirSign 20 * nx_14_20 P x; rw [p_nx_14_20, mir_14, mir_20]; ring
  · show nx_15_20 (sgM Spec.mirSign P) (predIn x) = Spec.mirSign 15 * Spec.mirSign 20 * nx_15_20 P x; rw [p_nx_15_20, mir_15, mir_20]; ring
  · show nx_16_20 (sgM Spec.mirSign P) (predIn x) = Spec.mirSign 16 * Spec.mirSign 20 * nx_16_20 P x; rw [p_nx_16_20, mir_16, mir_20]; ring
  · show nx_17_20 (sgM Spec.mirSign P) (predIn x) = Spec.mirSign 17 * Spec.mirSign 20 * nx_17_20 P x; rw [p_nx_17_20, mir_17, mir_20]; ring
  · show nx_18_20 (sgM Spec.mirSign P) (predIn x) = Spec.mirSign 18 * Spec.mirSign 20 * nx_18_20 P x; rw [p_nx_18_20, mir_18, mir_20]; ring
  · show nx_19_20 (sgM Spec.mirSign P) (predIn x) = Spec.mirSign 19 * Spec.mirSign 20 * nx_19_20 P x; rw [p_nx_19_20, mir_19, mir_20]; ring
  · show nx_20_20 (sgM Spec.mirSign P) (predIn x) = Spec.mirSign 20 * Spec.mirSign 20 * nx_20_20 P x; rw [p_nx_20_20, mir_20]; ring
  · exact (mul_zero _).symm
  · exact (mul_zero _).symm
  · exact (mul_zero _).symm
theorem p_c21 (i : Fin N) : nxCol21 (sgM Spec.mirSign P) (predIn x) i.val = Spec.mirSign i * Spec.mirSign 21 * nxCol21 P x i.val := by
  fin_cases i
  · show nx_0_21 (sgM Spec.mirSign P) (predIn x) = Spec.mirSign 0 * Spec.mirSign 21 * nx_0_21 P x; rw [p_nx_0_21, mir_0, mir_21]; ring
  · show nx_1_21 (sgM Spec.mirSign P) (predIn x) = Spec.mirSign 1 * Spec.mirSign 21 * nx_1_21 P x; rw [p_nx_1_21, mir_1, mir_21]; ring
  · show nx_2_21 (sgM Spec.mirSign P) (predIn x) = Spec.mirSign 2 * Spec.mirSign 21 * nx_2_21 P x; rw [p_nx_2_21, mir_2, mir_21]; ring
  · show nx_3_21 (sgM Spec.mirSign P) (predIn x) = Spec.mirSign 3 * Spec.mirSign 21 * nx_3_21 P x; rw [p_nx_3_21, mir_3, mir_21]; ring
  · show nx_4_21 (sgM Spec.mirSign P) (predIn x) = Spec.mirSign 4 * Spec.mirSign 21 * nx_4_21 P x; rw [p_nx_4_21, mir_4, mir_21]; ring
  · show nx_5_21 (sgM Spec.mirSign P) (predIn x) = Spec.mirSign 5 * Spec.mirSign 21 * nx_5_21 P x; rw [p_nx_5_21, mir_5, mir_21]; ring
  · show nx_6_21 (sgM Spec.mirSign P) (predIn x) = Spec.mirSign 6 * Spec.mirSign 21 * nx_6_21 P x; rw [p_nx_6_21, mir_6, mir_21]; ring
  · show nx_7_21 (sgM Spec.mirSign P) (predIn x) = Spec.mirSign 7 * Spec.mirSign 21 * nx_7_21 P x; rw [p_nx_7_21, mir_7, mir_21]; ring
  · show nx_8_21 (sgM Spec.mirSign P) (predIn x) = Spec.mirSign 8 * Spec.mirSign 21 * nx_8_21 P x; rw [p_nx_8_21, mir_8, mir_21]; ring
  · show nx_9_21 (sgM Spec.mirSign P) (predIn x) = Spec.mirSign 9 * Spec.mirSign 21 * nx_9_21 P x; rw [p_nx_9_21, mir_9, mir_21]; ring
  · show nx_10_21 (sgM Spec.mirSign P) (predIn x) = Spec.mirSign 10 * Spec.mirSign 21 * nx_10_21 P x; rw [p_nx_10_21, mir_10, mir_21]; ring
  · show nx_11_21 (sgM Spec.mirSign P) (predIn x) = Spec.mirSign 11 * Spec.mirSign 21 * nx_11_21 P x; rw [p_nx_11_21, mir_11, mir_21]; ring
  · show nx_12_21 (sgM Spec.mirSign P) (predIn x) = Spec.mirSign 12 * Spec.mirSign 21 * nx_12_21 P x; rw [p_nx_12_21, mir_12, mir_21]; ring
  · show nx_13_21 (sgM Spec.mirSign P) (predIn x) = Spec.mirSign 13 * Spec.mirSign 21 * nx_13_21 P x; rw [p_nx_13_21, mir_13, mir_21]; ring
  · show nx_14_21 (sgM Spec.mirSign P) (predIn x) = Spec.mirSign 14 * Spec.mirSign 21 * nx_14_21 P x; rw [p_nx_14_21, mir_14, mir_21]; ring
  · show nx_15_21 (sgM Spec.mirSign P) (predIn x) = Spec.mirSign 15 * Spec.mirSign 21 * nx_15_21 P x; rw [p_nx_15_21, mir_15, mir_21]; ring
  · show nx_16_21 (sgM Spec.mirSign P) (predIn x) = Spec.mirSign 16 * Spec.mirSign 21 * nx_16_21 P x; rw [p_nx_16_21, mir_16, mir_21]; ring
  · show nx_17_21 (sgM Spec.mirSign P) (predIn x) = Spec.mirSign 17 * Spec.mirSign 21 * nx_17_21 P x; rw [p_nx_17_21, mir_17, mir_21]; ring
  · show nx_18_21 (sgM Spec.mirSign P) (predIn x) = Spec.mirSign 18 * Spec.mirSign 21 * nx_18_21 P x; rw [p_nx_18_21, mir_18, mir_21]; ring
  · show nx_19_21 (sgM Spec.mirSign P) (predIn x) = Spec.mirSign 19 * Spec.mirSign 21 * nx_19_21 P x; rw [p_nx_19_21, mir_19, mir_21]; ring
  · show nx_20_21 (sgM Spec.mirSign P) (predIn x) = Spec.mirSign 20 * Spec.mirSign 21 * nx_20_21 P x; rw [p_nx_20_21, mir_20, mir_21]; ring
  · show nx_21_21 (sgM Spec.mirSign P) (predIn x) = Spec.mirSign 21 * Spec.mirSign 21 * nx_21_21 P x; rw [p_nx_21_21, mir_21]; ring
  · exact (mul_zero _).symm
  · exact (mul_zero _).symm
theorem p_c22 (i : Fin N) : nxCol22 (sgM Spec.mirSign P) (predIn x) i.val = Spec.mirSign i * Spec.mirSign 22 * nxCol22 P x i.val := by
  fin_cases i
  · show nx_0_22 (sgM Spec.mirSign P) (predIn x) = Spec.mirSign 0 * Spec.mirSign 22 * nx_0_22 P x; rw [p_nx_0_22, mir_0, mir_22]; ring
  · show nx_1_22 (sgM Spec.mirSign P) (predIn x) = Spec.mirSign 1 * Spec.mirSign 22 * nx_1_22 P x; rw [p_nx_1_22, mir_1, mir_22]; ring
  · show nx_2_22 (sgM Spec.mirSign P) (predIn x) = Spec.mirSign 2 * Spec.mirSign 22 * nx_2_22 P x; rw [p_nx_2_22, mir_2, mir_22]; ring
  · show nx_3_22 (sgM Spec.mirSign P) (predIn x) = Spec.mirSign 3 * Spec.mirSign 22 * nx_3_22 P x; rw [p_nx_3_22, mir_3, mir_22]; ring
  · show nx_4_22 (sgM Spec.mirSign P) (predIn x) = Spec.mirSign 4 * Spec.mirSign 22 * nx_4_22 P x; rw [p_nx_4_22, mir_4, mir_22]; ring
  · show nx_5_22 (sgM Spec.mirSign P) (predIn x) = Spec.mirSign 5 * Spec.mirSign 22 * nx_5_22 P x; rw [p_nx_5_22, mir_5, mir_22]; ring
  · show nx_6_22 (sgM Spec.mirSign P) (predIn x) = Spec.mirSign 6 * Spec.mirSign 22 * nx_6_22 P x; rw [p_nx_6_22, mir_6, mir_22]; ring
  · show nx_7_22 (sgM Spec.mirSign P) (predIn x) = Spec.mirSign 7 * Spec.mirSign 22 * nx_7_22 P x; rw [p_nx_7_22, mir_7, mir_22]; ring
  · show nx_8_22 (sgM Spec.mirSign P) (predIn x) = Spec.mirSign 8 * Spec.mirSign 22 * nx_8_22 P x; rw [p_nx_8_22, mir_8, mir_22]; ring
  · show nx_9_22 (sgM Spec.mirSign P) (predIn x) = Spec.mirSign 9 * Spec.mirSign 22 * nx_9_22 P x; rw [p_nx_9_22, mir_9, mir_22]; ring
  · show nx_10_22 (sgM Spec.mirSign P) (predIn x) = Spec.mirSign 10 * Spec.mirSign 22 * nx_10_22 P x; rw [p_nx_10_22, mir_10, mir_22]; ring
  · show nx_11_22 (sgM Spec.mirSign P) (predIn x) = Spec.mirSign 11 * Spec.mirSign 22 * nx_11_22 P x; rw [p_nx_11_22, mir_11, mir_22]; ring
  · show nx_12_22 (sgM Spec.mirSign P) (predIn x) = Spec.mirSign 12 * Spec.mirSign 22 * nx_12_22 P x; rw [p_nx_12_22, mir_12, mir_22]; ring
  · show nx_13_22 (sgM Spec.mirSign P) (predIn x) = Spec.mirSign 13 * Spec.mirSign 22 * nx_13_22 P x; rw [p_nx_13_22, mir_13, mir_22]; ring
  · show nx_14_22 (sgM Spec.mirSign P) (predIn x) = Spec.mirSign 14 * Spec.mirSign 22 * nx_14_22 P x; rw [p_nx_14_22, mir_14, mir_22]; ring
  · show nx_15_22 (sgM Spec.mirSign P) (predIn x) = Spec.mirSign 15 * Spec.mirSign 22 * nx_15_22 P x; rw [p_nx_15_22, mir_15, mir_22]; ring
  · show nx_16_22 (sgM Spec.mirSign P) (predIn x) = Spec.mirSign 16 * Spec.mirSign 22 * nx_16_22 P x; rw [p_nx_16_22, mir_16, mir_22]; ring
  · show nx_17_22 (sgM Spec.mirSign P) (predIn x) = Spec.mirSign 17 * Spec.mirSign 22 * nx_17_22 P x; rw [p_nx_17_22, mir_17, mir_22]; ring
  · show nx_18_22 (sgM Spec.mirSign P) (predIn x) = Spec.mirSign 18 * Spec.mirSign 22 * nx_18_22 P x; rw [p_nx_18_22, mir_18, mir_22]; ring
  · show nx_19_22 (sgM Spec.mirSign P) (predIn x) = Spec.mirSign 19 * Spec.mirSign 22 * nx_19_22 P x; rw [p_nx_19_22, mir_19, mir_22]; ring
  · show nx_20_22 (sgM Spec.mirSign P) (predIn x) = Spec.mirSign 20 * Spec.mirSign 22 * nx_20_22 P x; rw [p_nx_20_22, mir_20, mir_22]; ring
  · show nx_21_22 (sgM Spec.mirSign P) (predIn x) = Spec.mirSign 21 * Spec.mirSign 22 * nx_21_22 P x; rw [p_nx_21_22, mir_21, mir_22]; ring
  · show nx_22_22 (sgM Spec.mirSign P) (predIn x) = Spec.mirSign 22 * Spec.mirSign 22 * nx_22_22 P x; rw [p_nx_22_22, mir_22]; ring
  · exact (mul_zero _).symm
theorem p_c23 (i : Fin N) : nxCol23 (sgM Spec.mirSign P) (predIn x) i.val = Spec.mirSign i * Spec.mirSign 23 * nxCol23 P x i.val := by
  fin_cases i
  · show nx_0_23 (sgM Spec.mirSign P) (predIn x) = Spec.mirSign 0 * Spec.mirSign 23 * nx_0_23 P x; rw [p_nx_0_23, mir_0, mir_23]; ring
  · show nx_1_23 (sgM Spec.mirSign P) (predIn x) = Spec.mirSign 1 * Spec.mirSign 23 * nx_1_23 P x; rw [p_nx_1_23, mir_1, mir_23]; ring
  · show nx_2_23 (sgM Spec.mirSign P) (predIn x) = Spec.mirSign 2 * Spec.mirSign 23 * nx_2_23 P x; rw [p_nx_2_23, mir_2, mir_23]; ring
  · show nx_3_23 (sgM Spec.mirSign P) (predIn x) = Spec.mirSign 3 * Spec.mirSign 23 * nx_3_23 P x; rw [p_nx_3_23, mir_3, mir_23]; ring
  · show nx_4_23 (sgM Spec.mirSign P) (predIn x) = Spec.mirSign 4 * Spec.mirSign 23 * nx_4_23 P x; rw [p_nx_4_23, mir_4, mir_23]; ring
  · show nx_5_23 (sgM Spec.mirSign P) (predIn x) = Spec.mirSign 5 * Spec.mirSign 23 * nx_5_23 P x; rw [p_nx_5_23, mir_5, mir_23]; ring
  · show nx_6_23 (sgM Spec.mirSign P) (predIn x) = Spec.mirSign 6 * Spec.mirSign 23 * nx_6_23 P x; rw [p_nx_6_23, mir_6, mir_23]; ring
  · show nx_7_23 (sgM Spec.mirSign P) (predIn x) = Spec.mirSign 7 * Spec.mirSign 23 * nx_7_23 P x; rw [p_nx_7_23, mir_7, mir_23]; ring
  · show nx_8_23 (sgM Spec.mirSign P) (predIn x) = Spec.mirSign 8 * Spec.mirSign 23 * nx_8_23 P x; rw [p_nx_8_23, mir_8, mir_23]; ring
  · show nx_9_23 (sgM Spec.mirSign P) (predIn x) = Spec.mirSign 9 * Spec.mirSign 23 * nx_9_23 P x; rw [p_nx_9_23, mir_9, mir_23]; ring
  · show nx_10_23 (sgM Spec.mirSign P) (predIn x) = Spec.mirSign 10 * Spec.mirSign 23 * nx_10_23 P x; rw [p_nx_10_23, mir_10, mir_23]; ring
  · show nx_11_23 (sgM Spec.mirSign P) (predIn x) = Spec.mirSign 11 * Spec.mirSign 23 * nx_11_23 P x; rw [p_nx_11_23, mir_11, mir_23]; ring
  · show nx_12_23 (sgM Spec.mirSign P) (predIn x) = Spec.mirSign 12 * Spec.mirSign 23 * nx_12_23 P x; rw [p_nx_12_23, mir_12, mir_23]; ring
  · show nx_13_23 (sgM Spec.mirSign P) (predIn x) = Spec.mirSign 13 * Spec.mirSign 23 * nx_13_23 P x; rw [p_nx_13_23, mir_13, mir_23]; ring
  · show nx_14_23 (sgM Spec.mirSign P) (predIn x) = Spec.mirSign 14 * Spec.mirSign 23 * nx_14_23 P x; rw [p_nx_14_23, mir_14, mir_23]; ring
  · show nx_15_23 (sgM Spec.mirSign P) (predIn x) = Spec.mirSign 15 * Spec.mirSign 23 * nx_15_23 P x; rw [p_nx_15_23, mir_15, mir_23]; ring
  · show nx_16_23 (sgM Spec.mirSign P) (predIn x) = Spec.mirSign 16 * Spec.mirSign 23 * nx_16_23 P x; rw [p_nx_16_23, mir_16, mir_23]; ring
  · show nx_17_23 (sgM Spec.mirSign P) (predIn x) = Spec.mirSign 17 * Spec.mirSign 23 * nx_17_23 P x; rw [p_nx_17_23, mir_17, mir_23]; ring
  · show nx_18_23 (sgM Spec.mirSign P) (predIn x) = Spec.mirSign 18 * Spec.mirSign 23 * nx_18_23 P x; rw [p_nx_18_23, mir_18, mir_23]; ring
  · show nx_19_23 (sgM Spec.mirSign P) (predIn x) = Spec.mirSign 19 * Spec.mirSign 23 * nx_19_23 P x; rw [p_nx_19_23, mir_19, mir_23]; ring
  · show nx_20_23 (sgM Spec.mirSign P) (predIn x) = Spec.mirSign 20 * Spec.mirSign 23 * nx_20_23 P x; rw [p_nx_20_23, mir_20, mir_23]; ring
  · show nx_21_23 (sgM Spec.mirSign P) (predIn x) = Spec.mirSign 21 * Spec.mirSign 23 * nx_21_23 P x; rw [p_nx_21_23, mir_21, mir_23]; ring
  · show nx_22_23 (sgM Spec.mirSign P) (predIn x) = Spec.mirSign 22 * Spec.mirSign 23 * nx_22_23 P x; rw [p_nx_22_23, mir_22, mir_23]; ring
  · show nx_23_23 (sgM Spec.mirSign P) (predIn x) = Spec.mirSign 23 * Spec.mirSign 23 * nx_23_23 P x; rw [p_nx_23_23, mir_23]; ring
theorem p_all (i j : Fin N) : nxAll (sgM Spec.mirSign P) (predIn x) i.val j.val = Spec.mirSign i * Spec.mirSign j * nxAll P x i.val j.val := by
  fin_cases j
  · exact p_c0 P x i
  · exact p_c1 P x i
  · exact p_c2 P x i
  · exact p_c3 P x i
  · exact p_c4 P x i
  · exact p_c5 P x i
  · exact p_c6 P x i
  · exact p_c7 P x i
  · exact p_c8 P x i
  · exact p_c9 P x i
  · exact p_c10 P x i
  · exact p_c11 P x i
  · exact p_c12 P x i
  · exact p_c13 P x i
  · exact p_c14 P x i
  · exact p_c15 P x i
  · exact p_c16 P x i
  · exact p_c17 P x i
  · exact p_c18 P x i
  · exact p_c19 P x i
  · exact p_c20 P x i
  · exact p_c21 P x i
  · exact p_c22 P x i
  · exact p_c23 P x i

end Ecl.Whole.Mirror
