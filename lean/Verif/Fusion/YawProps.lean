import Verif.Fusion.Yaw

/-!
# Euler yaw fusion: theorems (C33, C85)
-/

set_option linter.unusedVariables false

namespace Ecl.Fusion

open Ecl.Cov
open scoped Matrix

theorem big5 (a b : ℝ) : |sq a * (1 / sq b) + 1| > 1 / 1000000 := by
  have : 0 ≤ sq a * (1 / sq b) := by unfold sq; exact mul_nonneg (mul_self_nonneg _) (one_div_nonneg.mpr (mul_self_nonneg _))
  rw [abs_of_nonneg (by linarith)]; linarith

theorem yawRow321_eq (s : Vec ℝ) : yawRow321 s =
    (if 1 / 1000000 < yN true s ^ 2 ∨ 1 / 1000000 < yE true s ^ 2 then some (yawGrad true s) else none) := by
  have eE : 2 * s 3 * s 0 + 2 * s 2 * s 1 = yE true s := by simp only [yE, if_true]; ring
  have eE' : 2 * s 0 * s 3 + 2 * s 1 * s 2 = yE true s := by simp only [yE, if_true]; ring
  have eN : sq (s 0) + sq (s 1) - sq (s 2) - sq (s 3) = yN true s := by simp only [yN, if_true, sq]; ring
  unfold yawRow321
  simp only [eE, eE', eN, big5, and_true, mul_comm (1 / sq (yE true s))]
  have hq : ∀ x : ℝ, sq x = x ^ 2 := fun x => (pow_two x).symm
  simp only [hq, gt_iff_lt]
  unfold yawGrad
  simp only [if_true]
  have hpos : ∀ a : ℝ, 1 / 1000000 < a ^ 2 → a ≠ 0 := by
    intro a h h0; rw [h0] at h; norm_num at h
  by_cases hA : 1 / 1000000 < yN true s ^ 2 <;> by_cases hB : 1 / 1000000 < yE true s ^ 2
  · have hn := hpos _ hA; have he := hpos _ hB
    have h1 : yN true s ^ 2 + yE true s ^ 2 ≠ 0 := by positivity
    have h2 : yE true s ^ 2 * (1 / yN true s ^ 2) + 1 ≠ 0 := by positivity
    have h3 : yN true s ^ 2 * (1 / yE true s ^ 2) + 1 ≠ 0 := by positivity
    simp only [hA, hB, true_and, true_or, if_true, not_true_eq_false, false_or]
    split
    · congr 1; funext c; fin_cases c <;> simp <;> field_simp <;> ring
    · rename_i hc
      rw [if_pos (not_le.mp hc)]
      congr 1; funext c; fin_cases c <;> simp <;> field_simp <;> ring
  · have hn := hpos _ hA
    have h2 : yE true s ^ 2 * (1 / yN true s ^ 2) + 1 ≠ 0 := by positivity
    have h1 : yN true s ^ 2 + yE true s ^ 2 ≠ 0 := by positivity
    simp only [hA, hB, true_and, true_or, if_true, not_false_eq_true]
    congr 1; funext c; fin_cases c <;> simp <;> field_simp <;> ring
  · have he := hpos _ hB
    have h1 : yN true s ^ 2 + yE true s ^ 2 ≠ 0 := by positivity
    have h3 : yN true s ^ 2 * (1 / yE true s ^ 2) + 1 ≠ 0 := by positivity
    simp only [hA, hB, true_and, false_and, true_or, or_true, if_true, if_false, not_false_eq_true]
    congr 1; funext c; fin_cases c <;> simp <;> field_simp <;> ring
  · simp only [hA, hB, false_and, if_false, or_self]

theorem yawRow312_eq (s : Vec ℝ) : yawRow312 s =
    (if 1 / 1000000 < yN false s ^ 2 ∨ 1 / 1000000 < yE false s ^ 2 then some (yawGrad false s) else none) := by
  have eE : 2 * s 3 * s 0 - 2 * s 2 * s 1 = yE false s := by simp only [yE, Bool.false_eq_true, if_false]; ring
  have eE' : -(2 * s 0) * s 3 + 2 * s 1 * s 2 = -yE false s := by simp only [yE, Bool.false_eq_true, if_false]; ring
  have eN : sq (s 0) - sq (s 1) + sq (s 2) - sq (s 3) = yN false s := by simp only [yN, Bool.false_eq_true, if_false, sq]; ring
  have eN' : -sq (s 0) + sq (s 1) - sq (s 2) + sq (s 3) = -yN false s := by simp only [yN, Bool.false_eq_true, if_false, sq]; ring
  unfold yawRow312
  have hm : ∀ x : ℝ, sq (-x) = sq x := fun x => by unfold sq; ring
  simp only [eE, eE', eN, eN', hm, big5, and_true, mul_comm (1 / sq (yE false s)) (sq (yN false s))]
  have hq : ∀ x : ℝ, sq x = x ^ 2 := fun x => (pow_two x).symm
  simp only [hq, gt_iff_lt]
  unfold yawGrad
  simp only [Bool.false_eq_true, if_false]
  have hpos : ∀ a : ℝ, 1 / 1000000 < a ^ 2 → a ≠ 0 := by
    intro a h h0; rw [h0] at h; norm_num at h
  by_cases hA : 1 / 1000000 < yN false s ^ 2 <;> by_cases hB : 1 / 1000000 < yE false s ^ 2
  · have hn := hpos _ hA; have he := hpos _ hB
    have h1 : yN false s ^ 2 + yE false s ^ 2 ≠ 0 := by positivity
    have h2 : yE false s ^ 2 * (1 / yN false s ^ 2) + 1 ≠ 0 := by positivity
    have h3 : yN false s ^ 2 * (1 / yE false s ^ 2) + 1 ≠ 0 := by positivity
    simp only [hA, hB, true_and, true_or, if_true, not_true_eq_false, false_or]
    split
    · congr 1; funext c; fin_cases c <;> simp <;> field_simp <;> ring
    · rename_i hc
      rw [if_pos (not_le.mp hc)]
      congr 1; funext c; fin_cases c <;> simp <;> field_simp <;> ring
  · have hn := hpos _ hA
    have h2 : yE false s ^ 2 * (1 / yN false s ^ 2) + 1 ≠ 0 := by positivity
    have h1 : yN false s ^ 2 + yE false s ^ 2 ≠ 0 := by positivity
    simp only [hA, hB, true_and, true_or, if_true, not_false_eq_true]
    congr 1; funext c; fin_cases c <;> simp <;> field_simp <;> ring
  · have he := hpos _ hB
    have h1 : yN false s ^ 2 + yE false s ^ 2 ≠ 0 := by positivity
    have h3 : yN false s ^ 2 * (1 / yE false s ^ 2) + 1 ≠ 0 := by positivity
    simp only [hA, hB, true_and, false_and, true_or, or_true, if_true, if_false, not_false_eq_true]
    congr 1; funext c; fin_cases c <;> simp <;> field_simp <;> ring
  · simp only [hA, hB, false_and, if_false, or_self]

/-- the row of a yaw fusion in the given sequence -/
theorem yawRow_eq (b : Bool) (s : Vec ℝ) : (if b then yawRow321 s else yawRow312 s) =
    (if 1 / 1000000 < yN b s ^ 2 ∨ 1 / 1000000 < yE b s ^ 2 then some (yawGrad b s) else none) := by
  cases b
  · exact yawRow312_eq s
  · exact yawRow321_eq s

theorem fold4 (g : Fin 4 → ℝ) (a : ℝ) : (List.finRange 4).foldl (fun t c => t + g c) a = a + (g 0 + g 1 + g 2 + g 3) := by
  simp [List.finRange_succ]; ring

theorem innovVar_quatRow (P : Mat ℝ) (j : Fin 4 → ℝ) (R : ℝ) :
    (List.finRange 4).foldl (fun acc r => acc + j r * (List.finRange 4).foldl (fun t c => t + P (qi r) (qi c) * j c) 0) R
      = Spec.innovVar P (Spec.quatRow j) R := by
  simp only [fold4]
  unfold Spec.quatRow
  rw [innovVar_sparse]
  simp only [mulVec_sparse, List.map_cons, List.map_nil, List.sum_cons, List.sum_nil]
  have e : qi 0 = 0 ∧ qi 1 = 1 ∧ qi 2 = 2 ∧ qi 3 = 3 := ⟨rfl, rfl, rfl, rfl⟩
  rw [e.1, e.2.1, e.2.2.1, e.2.2.2]
  ring

theorem mulVec_quatRow (P : Mat ℝ) (j : Fin 4 → ℝ) (i : Fin N) :
    (List.finRange 4).foldl (fun t c => t + P i (qi c) * j c) 0 = Spec.mulVec P (Spec.quatRow j) i := by
  simp only [fold4]
  unfold Spec.quatRow
  rw [mulVec_sparse]
  simp only [List.map_cons, List.map_nil, List.sum_cons, List.sum_nil]
  have e : qi 0 = 0 ∧ qi 1 = 1 ∧ qi 2 = 2 ∧ qi 3 = 3 := ⟨rfl, rfl, rfl, rfl⟩
  rw [e.1, e.2.1, e.2.2.1, e.2.2.2]
  ring

theorem applyYaw_eq (x : FixIn ℝ) (k : Vec ℝ) (j : Fin 4 → ℝ) (v : ℝ) (f : Filt) :
    applyYaw x k j v f = Spec.applyGain x k (Spec.quatRow j) f v := by
  have hc : ∀ r c : Fin N, k r * j 0 * f.P 0 c + k r * j 1 * f.P 1 c + k r * j 2 * f.P 2 c + k r * j 3 * f.P 3 c
      = k r * ∑ l, Spec.quatRow j l * f.P l c := by
    intro i c
    unfold Spec.quatRow
    rw [sum_sparse_mul (fun l => f.P l c)]
    simp only [List.map_cons, List.map_nil, List.sum_cons, List.sum_nil]
    ring
  unfold applyYaw Spec.applyGain
  simp only [hc]
  obtain ⟨C, hC⟩ : ∃ C : Mat ℝ, ∀ i c, k i * ∑ l, Spec.quatRow j l * f.P l c = C i c := ⟨_, fun _ _ => rfl⟩
  simp only [hC]
  change (if (checkAndFix C f.P).2 = true then _ else _) = _
  obtain ⟨s1, s2⟩ := checkAndFix_spec C f.P
  by_cases hh : ∀ i, C i i ≤ f.P i i
  · rw [if_pos (s1.mpr hh), if_pos hh]
    have : (checkAndFix C f.P).1 = f.P := by
      funext a b
      rw [s2, if_neg]
      push Not; exact ⟨hh a, hh b⟩
    rw [this]
  · rw [if_neg (fun h => hh (s1.mp h)), if_neg hh]
    have : (checkAndFix C f.P).1 = fun i j => if f.P i i < C i i ∨ f.P j j < C j j then 0 else f.P i j := by
      funext i j; exact s2 i j
    rw [this]

/-- states corrected by the Euler yaw fusion: everything except the magnetic field states, wind only while estimated -/
def Spec.yawSel (wind : Bool) (i : Fin N) : Prop := i.val ≤ 15 ∨ (wind = true ∧ 22 ≤ i.val ∧ i.val ≤ 23)

instance (w : Bool) : DecidablePred (Spec.yawSel w) := fun i => by unfold Spec.yawSel; infer_instance

theorem updateQuaternion_spec (x : HdgIn) (v R g : ℝ) (hR : 0 < R) (hg : 1 ≤ g) (j : Fin 4 → ℝ) (st : YawSt) :
    let H := Spec.quatRow j
    let S := Spec.innovVar st.f.P H R
    (S < R → updateQuaternion x v R g j st = { st with f := initCov x.ini st.f, bad := true, innovVar := S }) ∧
    (R ≤ S → Spec.HeadingUpdate (Spec.applyGain x.fx (Spec.gain st.f.P H R (Spec.yawSel x.fx.wind)) H st.f) S g v
      (!x.inAir && isTimedOut x.now x.lastInAir 5000000) st.innov st.lastGpsFuse st (updateQuaternion x v R g j st)) := by
  intro H S
  have hk : (fun i : Fin N => if i.val ≤ 15 ∨ (x.fx.wind = true ∧ 22 ≤ i.val ∧ i.val ≤ 23) then
      Spec.mulVec st.f.P (Spec.quatRow j) i * (1 / Spec.innovVar st.f.P (Spec.quatRow j) R) else 0)
      = Spec.gain st.f.P H R (Spec.yawSel x.fx.wind) := by
    funext i; unfold Spec.gain Spec.yawSel; simp only [mul_one_div]; rfl
  unfold updateQuaternion
  simp only [innovVar_quatRow]
  simp only [mulVec_quatRow, applyYaw_eq, hk]
  change (S < R → (if ¬ S ≥ R then _ else _) = _) ∧ (R ≤ S → Spec.HeadingUpdate _ _ _ _ _ _ _ _ (if ¬ S ≥ R then _ else _))
  constructor
  · intro h; rw [if_pos (not_le.mpr h)]
  · intro h
    rw [if_neg (not_not.mpr h)]
    have hS : 0 < S := lt_of_lt_of_le hR h
    have hsg : ∀ y : ℝ, sq y = y ^ 2 := fun y => (pow_two y).symm
    have hgS : 0 < g ^ 2 * S := mul_pos (by positivity) hS
    have hI : Spec.innovVar st.f.P (Spec.quatRow j) R = S := rfl
    simp only [hsg, hI, gt_iff_lt, one_lt_div hgS]
    change Spec.HeadingUpdate (Spec.applyGain x.fx _ H st.f) _ _ _ _ _ _ _ _
    unfold Spec.HeadingUpdate
    rcases le_or_gt (v ^ 2) (g ^ 2 * S) with hv | hv
    · rw [if_neg (not_lt.mpr hv)]
      refine ⟨rfl, rfl, rfl, fun _ => ⟨rfl, rfl, rfl, rfl, (ite_self _).symm⟩, fun h' => absurd hv (not_le.mpr h')⟩
    · rw [if_pos hv]
      have hc := clamp_gate hg hS hv
      rw [show sq g = g ^ 2 from (pow_two g).symm] at hc
      rw [hc]
      cases hi : x.inAir
      · cases ht : isTimedOut x.now x.lastInAir 5000000
        · rw [if_neg (by simp)]
          exact ⟨rfl, rfl, rfl, fun h' => absurd h' (not_le.mpr hv),
            fun _ => ⟨rfl, fun _ => ⟨rfl, rfl, rfl, rfl⟩, fun h' => by cases h'⟩⟩
        · rw [if_pos ⟨rfl, rfl⟩]
          exact ⟨rfl, rfl, rfl, fun h' => absurd h' (not_le.mpr hv),
            fun _ => ⟨rfl, fun h' => (by cases h'), fun _ => ⟨rfl, rfl, rfl, (ite_self _).symm⟩⟩⟩
      · rw [if_neg (by simp)]
        exact ⟨rfl, rfl, rfl, fun h' => absurd h' (not_le.mpr hv),
          fun _ => ⟨rfl, fun _ => ⟨rfl, rfl, rfl, rfl⟩, fun h' => by cases h'⟩⟩

/-- yaw fusion in the given sequence -/
noncomputable def fuseYaw (use321 : Bool) (x : HdgIn) (Rte : M3 ℝ) (yaw variance : ℝ) (zero : Bool) (st : YawSt) : YawSt :=
  if use321 then fuseYaw321 x Rte yaw variance zero st else fuseYaw312 x Rte yaw variance zero st

/-- yaw of an attitude matrix in the given sequence -/
noncomputable def Spec.yawOfMat (use321 : Bool) (R : M3 ℝ) : ℝ := if use321 then atan2 (R 1 0) (R 0 0) else atan2 (-R 0 1) (R 1 1)

/-- **C33 (Euler yaw).** Both yaw fusions (3-2-1 and 3-1-2): they do nothing if both horizontal components of the direction that
defines the yaw are below 1e-3; otherwise, whichever computational path is taken, the row is the gradient `H` of the yaw,
`S = H P Hᵀ + R` with `R = max(variance, 1e-4)`; a negative variance contribution reinitialises the covariance; the innovation is the
wrapped difference (or zero when asked for), tested against the gate; failing innovations are dropped unless the vehicle has been
on the ground for more than 5 s, then they are clamped to the gate. -/
theorem yaw_fusion (b : Bool) (x : HdgIn) (Rte : M3 ℝ) (yaw variance : ℝ) (zero : Bool) (st : YawSt)
    (hb : let R := (attQuat st.f.s).dcm
      if b then 0 < R 0 0 ∨ R 1 0 ≠ 0 else 0 < R 1 1 ∨ R 0 1 ≠ 0) :
    let Q := (attQuat st.f.s).dcm
    let small := if b then |Q 0 0| ≤ 1 / 1000 ∧ |Q 1 0| ≤ 1 / 1000 else |Q 1 1| ≤ 1 / 1000 ∧ |Q 0 1| ≤ 1 / 1000
    (small → fuseYaw b x Rte yaw variance zero st = st) ∧
    (¬ small → ∃ H : Vec ℝ, Spec.IsGradient (Spec.yawOf b) st.f.s H ∧
      let R := max variance (1 / 10000)
      let S := Spec.innovVar st.f.P H R
      let v := if zero then 0 else wrapPi (Spec.yawOfMat b Rte - wrapPi yaw)
      (S < R → fuseYaw b x Rte yaw variance zero st = { st with f := initCov x.ini st.f, bad := true, innovVar := S }) ∧
      (R ≤ S → Spec.HeadingUpdate (Spec.applyGain x.fx (Spec.gain st.f.P H R (Spec.yawSel x.fx.wind)) H st.f) S (max x.gate 1) v
        (!x.inAir && isTimedOut x.now x.lastInAir 5000000) st.innov st.lastGpsFuse st (fuseYaw b x Rte yaw variance zero st))) := by
  intro Q small
  have hN : yN b st.f.s = if b then Q 0 0 else Q 1 1 := by
    cases b <;> simp [yN, Q, attQuat, Quat.dcm] <;> ring
  have hE : yE b st.f.s = if b then Q 1 0 else -Q 0 1 := by
    cases b <;> simp [yE, Q, attQuat, Quat.dcm] <;> ring
  have hsm : small ↔ ¬ (1 / 1000000 < yN b st.f.s ^ 2 ∨ 1 / 1000000 < yE b st.f.s ^ 2) := by
    have key : ∀ a : ℝ, |a| ≤ 1 / 1000 ↔ ¬ 1 / 1000000 < a ^ 2 := by
      intro a
      rw [not_lt, show (1 / 1000000 : ℝ) = (1 / 1000) ^ 2 by norm_num, sq_le_sq, abs_of_pos (by norm_num : (0 : ℝ) < 1 / 1000)]
    simp only [small, not_or, hN, hE]
    cases b <;> simp only [Bool.false_eq_true, if_false, if_true, key, neg_sq]
  have hrow := yawRow_eq b st.f.s
  have hf : fuseYaw b x Rte yaw variance zero st =
      match (if b then yawRow321 st.f.s else yawRow312 st.f.s) with
      | none => st
      | some j => updateQuaternion x (if zero then 0 else wrapPi (Spec.yawOfMat b Rte - wrapPi yaw)) (max variance (1 / 10000))
          (max x.gate 1) j st := by
    unfold fuseYaw fuseYaw321 fuseYaw312 Spec.yawOfMat
    cases b <;> simp only [Bool.false_eq_true, if_false, if_true, mmax_eq]
    · cases yawRow312 st.f.s <;> rfl
    · cases yawRow321 st.f.s <;> rfl
  have hR : (0 : ℝ) < max variance (1 / 10000) := lt_of_lt_of_le (by norm_num) (le_max_right _ _)
  constructor
  · intro h
    rw [hf, hrow, if_neg (hsm.mp h)]
  · intro h
    have h' := not_not.mp ((not_congr hsm).mp h)
    refine ⟨Spec.quatRow (yawGrad b st.f.s), yawGrad_gradient b st.f.s ?_, ?_⟩
    · rw [hN, hE]
      cases b
      · simpa only [Bool.false_eq_true, if_false, ne_eq, neg_eq_zero] using hb
      · simpa only [if_true] using hb
    · rw [hf, hrow, if_pos h']
      exact updateQuaternion_spec x _ _ _ hR (le_max_right _ _) _ st

/-- **C33 (always observable).** For a unit attitude quaternion the sequence selected by the code never meets the "do nothing" case. -/
theorem yaw_selected_observable (q : Quat ℝ) (hq : q.normSq = 1) :
    (Utils.shouldUse321 q.dcm → ¬ (|q.dcm 0 0| ≤ 1 / 1000 ∧ |q.dcm 1 0| ≤ 1 / 1000)) ∧
    (¬ Utils.shouldUse321 q.dcm → ¬ (|q.dcm 1 1| ≤ 1 / 1000 ∧ |q.dcm 0 1| ≤ 1 / 1000)) := by
  have hrot : Utils.IsRotation q.dcm := Utils.isRotation_of_orth (Quat.dcm_mul_transpose q hq) (Quat.dcm_det q hq)
  obtain ⟨h1, h2⟩ := Utils.selected_sequence_regular hrot
  have c0 := congrFun (congrFun hrot.orth' 0) 0
  have c1 := congrFun (congrFun hrot.orth' 1) 1
  simp only [Matrix.mul_apply, Fin.sum_univ_three, Matrix.transpose_apply, Matrix.one_apply_eq] at c0 c1
  have sm : ∀ a : ℝ, |a| ≤ 1 / 1000 → a * a ≤ 1 / 1000000 := by
    intro a ha
    have : a ^ 2 ≤ (1 / 1000) ^ 2 := by rw [sq_le_sq, abs_of_pos (by norm_num : (0 : ℝ) < 1 / 1000)]; exact ha
    nlinarith
  constructor
  · rintro hs ⟨ha, hb⟩
    have := h1 hs; have := sm _ ha; have := sm _ hb
    nlinarith
  · rintro hs ⟨ha, hb⟩
    have := h2 hs; have := sm _ ha; have := sm _ hb
    nlinarith

theorem dcm_isRotation (q : Quat ℝ) (hq : q.normSq = 1) : Utils.IsRotation q.dcm :=
  Utils.isRotation_of_orth (Quat.dcm_mul_transpose q hq) (Quat.dcm_det q hq)

set_option maxHeartbeats 1600000 in
/-- removing the yaw (of the selected sequence) from an attitude leaves the attitude turned back by the yaw about the vertical -/
theorem yaw_removed {R : M3 ℝ} (h : Utils.IsRotation R) (b : Bool) (hb : b = true ↔ Utils.shouldUse321 R) :
    let ψ := Spec.yawOfMat b R
    (if b then Utils.updateEuler321YawInRotMat 0 R else Utils.updateEuler312YawInRotMat 0 R) =
      !![Real.cos ψ, Real.sin ψ, 0; -Real.sin ψ, Real.cos ψ, 0; 0, 0, 1] * R := by
  intro ψ
  have hreg := Utils.selected_sequence_regular h
  have hr := h.row2
  have o := h.orth
  have o' := h.orth'
  have hd := h.det
  have c00 := congrFun (congrFun o' 0) 0
  have c01 := congrFun (congrFun o' 0) 1
  have c02 := congrFun (congrFun o' 0) 2
  have c11 := congrFun (congrFun o' 1) 1
  have c12 := congrFun (congrFun o' 1) 2
  have c22 := congrFun (congrFun o' 2) 2
  -- a rotation equals the transposed cofactor matrix
  have hadj : R.adjugate = Rᵀ := by
    have h1 : R * R.adjugate = 1 := by rw [Matrix.mul_adjugate, hd, one_smul]
    calc R.adjugate = (Rᵀ * R) * R.adjugate := by rw [o', Matrix.one_mul]
      _ = Rᵀ := by rw [Matrix.mul_assoc, h1, Matrix.mul_one]
  have a := fun i j => congrFun (congrFun hadj i) j
  have a02 := a 0 2
  have a12 := a 1 2
  have a22 := a 2 2
  rw [Matrix.adjugate_fin_three] at a02 a12 a22
  simp only [Matrix.mul_apply, Fin.sum_univ_three, Matrix.transpose_apply, Matrix.one_apply_eq] at c00 c01 c02 c11 c12 c22
  rw [Matrix.one_apply_ne (by decide)] at c01 c02 c12
  simp at a02 a12 a22
  clear a hadj o o' hd
  cases b
  · have hs : ¬ Utils.shouldUse321 R := fun hh => by cases hb.mpr hh
    have hle := hreg.2 hs
    have hsum : R 2 2 ^ 2 + (-R 2 0) ^ 2 = 1 - R 2 1 ^ 2 := by linarith
    have hpos : 0 < R 2 2 ^ 2 + (-R 2 0) ^ 2 := by rw [hsum]; nlinarith
    have hsin : Real.sin (Real.arcsin (R 2 1)) = R 2 1 := Real.sin_arcsin (by nlinarith) (by nlinarith)
    have hcos : Real.cos (Real.arcsin (R 2 1)) = Real.sqrt (1 - R 2 1 ^ 2) := by rw [Real.cos_arcsin]
    have hsq : 0 < Real.sqrt (1 - R 2 1 ^ 2) := Real.sqrt_pos.mpr (by nlinarith)
    have hq : Real.sqrt (1 - R 2 1 ^ 2) ^ 2 = 1 - R 2 1 ^ 2 := Real.sq_sqrt (by nlinarith)
    have hNE : R 1 1 ^ 2 + (-R 0 1) ^ 2 = 1 - R 2 1 ^ 2 := by nlinarith
    have hψc : Real.cos ψ = R 1 1 / Real.sqrt (1 - R 2 1 ^ 2) := by
      show Real.cos (atan2 (-R 0 1) (R 1 1)) = _
      rw [cos_atan2 (by rw [hNE]; nlinarith), hNE]
    have hψs : Real.sin ψ = -R 0 1 / Real.sqrt (1 - R 2 1 ^ 2) := by
      show Real.sin (atan2 (-R 0 1) (R 1 1)) = _
      rw [sin_atan2, hNE]
    rw [hψc, hψs]
    simp only [Bool.false_eq_true, if_false]
    unfold Utils.updateEuler312YawInRotMat Utils.taitBryan312ToRotMat
    simp only [Matrix.cons_val]
    rw [hsin, hcos, sin_atan2, cos_atan2 hpos.ne', hsum, Real.sin_zero, Real.cos_zero]
    generalize Real.sqrt (1 - R 2 1 ^ 2) = w at hsq hq
    ext i j
    fin_cases i <;> fin_cases j <;> simp [Matrix.mul_apply, Fin.sum_univ_three] <;> field_simp <;> linarith
  · have hs : Utils.shouldUse321 R := hb.mp rfl
    have hlt := hreg.1 hs
    obtain ⟨g1, g2⟩ := Utils.not_gimbal hlt
    have hsum : R 2 2 ^ 2 + R 2 1 ^ 2 = 1 - R 2 0 ^ 2 := by linarith
    have hpos : 0 < R 2 2 ^ 2 + R 2 1 ^ 2 := by rw [hsum]; nlinarith
    have hsin : Real.sin (Real.arcsin (-R 2 0)) = -R 2 0 := Real.sin_arcsin (by nlinarith) (by nlinarith)
    have hcos : Real.cos (Real.arcsin (-R 2 0)) = Real.sqrt (1 - R 2 0 ^ 2) := by rw [Real.cos_arcsin]; simp
    have hsq : 0 < Real.sqrt (1 - R 2 0 ^ 2) := Real.sqrt_pos.mpr (by nlinarith)
    have hq : Real.sqrt (1 - R 2 0 ^ 2) ^ 2 = 1 - R 2 0 ^ 2 := Real.sq_sqrt (by nlinarith)
    have hNE : R 0 0 ^ 2 + R 1 0 ^ 2 = 1 - R 2 0 ^ 2 := by nlinarith
    have hψc : Real.cos ψ = R 0 0 / Real.sqrt (1 - R 2 0 ^ 2) := by
      show Real.cos (atan2 (R 1 0) (R 0 0)) = _
      rw [cos_atan2 (by rw [hNE]; nlinarith), hNE]
    have hψs : Real.sin ψ = R 1 0 / Real.sqrt (1 - R 2 0 ^ 2) := by
      show Real.sin (atan2 (R 1 0) (R 0 0)) = _
      rw [sin_atan2, hNE]
    rw [hψc, hψs]
    simp only [if_true]
    unfold Utils.updateEuler321YawInRotMat Utils.eulerOfDcm Utils.dcmOfEuler
    simp only [g1, g2, if_false]
    rw [hsin, hcos, sin_atan2, cos_atan2 hpos.ne', hsum, Real.sin_zero, Real.cos_zero]
    generalize Real.sqrt (1 - R 2 0 ^ 2) = w at hsq hq
    ext i j
    fin_cases i <;> fin_cases j <;> simp [Matrix.mul_apply, Fin.sum_univ_three] <;> field_simp <;> linarith

/-- **C33 (negative part, conditioning).** When both computational paths are usable the code takes the one that divides by the
*smaller* of the two horizontal components: path A (division by the north component `N`) exactly when `|E| ≥ |N|`. -/
theorem yaw_path_choice (N E : ℝ) (hN : 1 / 1000000 < N ^ 2) (hE : 1 / 1000000 < E ^ 2) :
    (|sq E * (1 / sq N) + 1| ≥ |1 / sq E * sq N + 1|) ↔ |N| ≤ |E| := by
  have hn : 0 < N ^ 2 := by linarith
  have he : 0 < E ^ 2 := by linarith
  have hq : ∀ x : ℝ, sq x = x ^ 2 := fun x => (pow_two x).symm
  simp only [hq]
  rw [abs_of_nonneg (by positivity), abs_of_nonneg (by positivity), ge_iff_le, add_le_add_iff_right, mul_one_div, one_div_mul_eq_div,
    div_le_div_iff₀ he hn, ← sq_le_sq]
  constructor
  · intro h
    by_contra hc
    push Not at hc
    nlinarith
  · intro h; nlinarith

end Ecl.Fusion
