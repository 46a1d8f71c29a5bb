import Verif.Fusion.VelPos

/-!
# Velocity and position gates on NaN (C36) — EKF/vel_pos_fusion.cpp:48-182

A float is `some x` (finite, arithmetic exact) or `none` (NaN). Infinities are not modelled.
-/

namespace Ecl.Fusion.NaN

open Ecl.Cov Ecl.Fusion

/-- finite real or NaN -/
abbrev NF := Option ℝ

noncomputable section

/-- IEEE arithmetic propagates NaN -/
def add : NF → NF → NF | some a, some b => some (a + b) | _, _ => none
/-- subtraction -/
def sub : NF → NF → NF | some a, some b => some (a - b) | _, _ => none
/-- multiplication: `0 * NaN` is NaN -/
def mul : NF → NF → NF | some a, some b => some (a * b) | _, _ => none
/-- division, used with non-zero finite denominators -/
def div : NF → NF → NF | some a, some b => some (a / b) | _, _ => none
/-- `sqrtf` of a positive number -/
def sqrt : NF → NF | some a => some (Real.sqrt a) | none => none
/-- C `fmaxf`: a NaN argument is ignored -/
def fmax : NF → NF → NF | some a, some b => some (max a b) | none, b => b | a, none => a
/-- comparisons with NaN are false -/
def le : NF → NF → Prop | some a, some b => a ≤ b | _, _ => False
/-- `>` -/
def gt : NF → NF → Prop | some a, some b => a > b | _, _ => False
/-- `math::constrain` -/
def constr (v lo hi : NF) : NF := open Classical in if gt lo v then lo else if gt v hi then hi else v

/-- test ratio of the two horizontal gates, EKF/vel_pos_fusion.cpp:54-55 and 120-121 -/
def hRatio (i0 i1 g v0 v1 : NF) : NF := fmax (div (mul i0 i0) (mul (mul g g) v0)) (div (mul i1 i1) (mul (mul g g) v1))

/-- `fuseHorizontalVelocity` fuses, EKF/vel_pos_fusion.cpp:57-59 -/
def hvelFused (i0 i1 g v0 v1 : NF) : Prop := le (hRatio i0 i1 g v0 v1) (some 1)

/-- `fuseHorizontalPosition` fuses, EKF/vel_pos_fusion.cpp:123-129 -/
def hposFused (i0 i1 g v0 v1 : NF) (inhibit : Bool) : Prop :=
  (le (hRatio i0 i1 g v0 v1) (some 1) ∨ inhibit = true) ∧
    ¬ (inhibit = true ∧ gt (hRatio i0 i1 g v0 v1) (mul (div (some 100) g) (div (some 100) g)))

/-- innovation used by the vertical functions if they fuse, EKF/vel_pos_fusion.cpp:83-108 and 153-178; `none`: rejected -/
def vertFused (i g v : NF) (badAccel : Bool) : Option NF :=
  open Classical in
  let pass := le (div (mul i i) (mul (mul g g) v)) (some 1)
  if pass then some i
  else if badAccel then some (constr i (sub (some 0) (mul g (sqrt v))) (mul g (sqrt v)))
  else none

/-- state correction `fuse`, EKF/ekf_helper.cpp:983-994, before the normalisation of the quaternion -/
def fuseLin (s k : Fin N → NF) (innov : NF) : Fin N → NF := fun i => sub (s i) (mul (k i) innov)

/-- state correction with quaternion normalisation -/
def fuse (s k : Fin N → NF) (innov : NF) : Fin N → NF :=
  let t := fuseLin s k innov
  let n := sqrt (add (add (mul (t 0) (t 0)) (mul (t 1) (t 1))) (add (mul (t 2) (t 2)) (mul (t 3) (t 3))))
  fun i => if i.val < 4 then div (t i) n else t i

end

/-- on finite values the gates are those of the real model -/
theorem hvelFused_finite (x : VPIn) (st : VPSt) (i0 i1 g r0 r1 : ℝ) :
    hvelFused (some i0) (some i1) (some g) (some (st.f.P 4 4 + r0)) (some (st.f.P 5 5 + r1)) ↔
      (fuseHorizontalVelocity x i0 i1 g r0 r1 st).ret = true := by
  unfold fuseHorizontalVelocity hvelFused hRatio
  simp only [mul, div, fmax, le]
  change max (sq i0 / (sq g * _)) (sq i1 / (sq g * _)) ≤ 1 ↔ _
  by_cases h : max (sq i0 / (sq g * (st.f.P 4 4 + r0))) (sq i1 / (sq g * (st.f.P 5 5 + r1))) ≤ 1
  · rw [if_pos h]; simpa using h
  · rw [if_neg h]; simpa using h

theorem hposFused_finite (x : VPIn) (st : VPSt) (i0 i1 g r0 r1 : ℝ) (inh : Bool) :
    hposFused (some i0) (some i1) (some g) (some (st.f.P 7 7 + r0)) (some (st.f.P 8 8 + r1)) inh ↔
      (fuseHorizontalPosition x i0 i1 g r0 r1 inh st).ret = true := by
  unfold fuseHorizontalPosition hposFused hRatio
  simp only [mul, div, fmax, le, gt]
  change ((max (sq i0 / (sq g * _)) (sq i1 / (sq g * _)) ≤ 1 ∨ _) ∧ ¬ (_ ∧ max (sq i0 / (sq g * _)) (sq i1 / (sq g * _)) > sq (100 / g))) ↔ _
  by_cases h : max (sq i0 / (sq g * (st.f.P 7 7 + r0))) (sq i1 / (sq g * (st.f.P 8 8 + r1))) ≤ 1 ∨ inh = true
  · rw [if_pos h]
    by_cases h2 : inh = true ∧ max (sq i0 / (sq g * (st.f.P 7 7 + r0))) (sq i1 / (sq g * (st.f.P 8 8 + r1))) > sq (100 / g)
    · rw [if_pos h2]; exact ⟨fun a => absurd h2 a.2, fun a => by simp at a⟩
    · rw [if_neg h2]; exact ⟨fun _ => rfl, fun _ => ⟨h, h2⟩⟩
  · rw [if_neg h]; exact ⟨fun a => absurd a.1 h, fun a => by simp at a⟩

/-- **C36 (both axes NaN).** Velocity: rejected. Position: rejected unless the caller inhibits the gate. -/
theorem both_nan (g v0 v1 : NF) : ¬ hvelFused none none g v0 v1 ∧ ¬ hposFused none none g v0 v1 false := by
  constructor
  · unfold hvelFused hRatio; cases v0 <;> cases v1 <;> simp [mul, div, fmax, le]
  · unfold hposFused hRatio; cases v0 <;> cases v1 <;> simp [mul, div, fmax, le]

/-- **C36 refuted (one axis NaN).** A NaN north or east innovation is fused whenever the other axis is inside its gate. -/
theorem one_nan_fused (i g v0 v1 : ℝ) (hg : 0 < g) (h0 : 0 < v0) (h1 : 0 < v1) :
    (i ^ 2 ≤ g ^ 2 * v1 → hvelFused none (some i) (some g) (some v0) (some v1) ∧
      hposFused none (some i) (some g) (some v0) (some v1) false) ∧
    (i ^ 2 ≤ g ^ 2 * v0 → hvelFused (some i) none (some g) (some v0) (some v1) ∧
      hposFused (some i) none (some g) (some v0) (some v1) false) := by
  constructor
  · intro h
    have : i * i / (g * g * v1) ≤ 1 := by rw [div_le_one (by positivity)]; nlinarith
    constructor
    · unfold hvelFused hRatio; simpa [mul, div, fmax, le] using this
    · unfold hposFused hRatio; simpa [mul, div, fmax, le] using this
  · intro h
    have : i * i / (g * g * v0) ≤ 1 := by rw [div_le_one (by positivity)]; nlinarith
    constructor
    · unfold hvelFused hRatio; simpa [mul, div, fmax, le] using this
    · unfold hposFused hRatio; simpa [mul, div, fmax, le] using this

/-- **C36 refuted (inhibited gate).** With the gate inhibited even two NaN innovations are fused. -/
theorem inhibited_gate_fuses_nan (g v0 v1 : NF) : hposFused none none g v0 v1 true := by
  unfold hposFused hRatio
  cases v0 <;> cases v1 <;> simp [mul, div, fmax, gt]

/-- **C36 (consequence).** Fusing a NaN innovation makes every one of the 24 states NaN, whatever the gains: also states with
zero gain. -/
theorem nan_fusion_destroys_state (s k : Fin N → NF) (i : Fin N) : fuse s k none i = none := by
  have h : ∀ j, fuseLin s k none j = none := by
    intro j; unfold fuseLin
    cases s j <;> cases k j <;> simp [mul, sub]
  unfold fuse
  simp only [h]
  split <;> simp [div, mul]

/-- **C36 (vertical).** A NaN vertical innovation is rejected unless the bad vertical acceleration flag is set, in which
case it is fused. -/
theorem vertical_nan (g v : NF) (bad : Bool) : vertFused none g v bad = if bad then some none else none := by
  unfold vertFused
  cases v <;> cases g <;> cases bad <;> simp [mul, div, le, constr, gt, sub, sqrt]

/-- finite vertical innovations: as in the real model -/
theorem vertical_finite (x : VPIn) (st : VPSt) (i g r : ℝ) (hbad : x.badVertAccel = false) :
    (vertFused (some i) (some g) (some (st.f.P 6 6 + r)) false = some (some i) ↔ (fuseVerticalVelocity x i g r st).ret = true) ∧
    (vertFused (some i) (some g) (some (st.f.P 9 9 + r)) false = some (some i) ↔ (fuseVerticalPosition x i g r st).ret = true) := by
  unfold vertFused fuseVerticalVelocity fuseVerticalPosition
  simp only [mul, div, le, hbad]
  constructor
  · change ((if sq i / (sq g * (st.f.P 6 6 + r)) ≤ 1 then _ else _) = _) ↔ _
    by_cases h : sq i / (sq g * (st.f.P 6 6 + r)) ≤ 1 <;> simp [h]
  · change ((if sq i / (sq g * (st.f.P 9 9 + r)) ≤ 1 then _ else _) = _) ↔ _
    by_cases h : sq i / (sq g * (st.f.P 9 9 + r)) ≤ 1 <;> simp [h]

/-- a concrete case: NaN north velocity, east innovation 0.1 m/s, gate 5, unit variances -/
example : hvelFused none (some (1/10)) (some 5) (some 1) (some 1) :=
  ((one_nan_fused (1/10) 5 1 1 (by norm_num) (by norm_num) (by norm_num)).1 (by norm_num)).1

end Ecl.Fusion.NaN
