import Verif.Fusion.YawProps

/-!
# Velocity and position fusion — EKF/vel_pos_fusion.cpp

Floats are exact reals here (`fmaxf` is `max`); the behaviour of the gates on NaN is in `VelPosNaN.lean`.
-/

namespace Ecl.Fusion

open Ecl.Cov

noncomputable section

/-- inputs read: `fx` (covariance conditioning parameters, `fx.now` is `_time_last_imu`), `_bad_vert_accel_detected`,
`_fuse_hpos_as_odom` -/
structure VPIn where
  fx : FixIn ℝ
  badVertAccel : Bool
  asOdom : Bool

/-- members written by EKF/vel_pos_fusion.cpp -/
structure VPSt where
  f : Filt
  /-- `_fault_status.flags.bad_vel_N … bad_pos_D` -/
  fault : Fin 6 → Bool
  /-- `_time_last_hor_vel_fuse` -/
  tHvel : UInt64
  /-- `_time_last_ver_vel_fuse` -/
  tVvel : UInt64
  /-- `_time_last_hor_pos_fuse` -/
  tHpos : UInt64
  /-- `_time_last_delpos_fuse` -/
  tDelpos : UInt64
  /-- `_time_last_hgt_fuse` -/
  tHgt : UInt64
  /-- `_vert_vel_fuse_time_us` -/
  tVvelTry : UInt64
  /-- `_vert_pos_fuse_attempt_time_us` -/
  tVposTry : UInt64
  rejHvel : Bool
  rejVvel : Bool
  rejHpos : Bool
  rejVpos : Bool
  /-- `_last_fail_hvel_innov` -/
  lastFail : ℝ × ℝ
  /-- `_vert_vel_innov_ratio` -/
  vvelRatio : ℝ
  /-- `_vert_pos_innov_ratio` -/
  vposRatio : ℝ

/-- state index of observation `o` (0-2 velocity, 3-5 position): `obs_index + 4`, EKF/vel_pos_fusion.cpp:188 -/
def obsState (o : Fin 6) : Fin N := ⟨o.val + 4, by have := o.isLt; unfold N; omega⟩

/-- `setVelPosFaultStatus`, EKF/vel_pos_fusion.cpp:231-250 -/
def setFault (flt : Fin 6 → Bool) (o : Fin 6) (b : Bool) : Fin 6 → Bool := fun i => if i = o then b else flt i

/-- `fuseVelPosHeight`, EKF/vel_pos_fusion.cpp:184-229 -/
def fuseVelPosHeight (x : VPIn) (innov innovVar : ℝ) (o : Fin 6) (st : VPSt) : VPSt :=
  let si := obsState o
  let k : Vec ℝ := fun row => st.f.P row si / innovVar
  let khp : Mat ℝ := fun row col => k row * st.f.P si col
  let r := checkAndFix khp st.f.P
  let st := { st with fault := setFault st.fault o (!r.2) }
  if r.2 then
    let g := fixCovarianceErrors x.fx true st.f.timeCheck st.f.badAccBias (fun i j => r.1 i j - khp i j)
    { st with f := { st.f with s := fuseState st.f.s k innov, M := { st.f.M with P := g.1 }, timeCheck := g.2.1, badAccBias := g.2.2 } }
  else { st with f := { st.f with M := { st.f.M with P := r.1 } } }

/-- outputs through the reference parameters, and the returned flag -/
structure VPOut where
  st : VPSt
  /-- entries of `innov_var` written (first, second; the vertical functions write one) -/
  var : ℝ × ℝ
  ratio : ℝ
  ret : Bool

/-- `fuseHorizontalVelocity`, EKF/vel_pos_fusion.cpp:48-77; `i0 i1` innovations, `g` gate, `r0 r1` observation variances -/
def fuseHorizontalVelocity (x : VPIn) (i0 i1 g r0 r1 : ℝ) (st : VPSt) : VPOut :=
  let v0 := st.f.P 4 4 + r0
  let v1 := st.f.P 5 5 + r1
  let ratio := max (sq i0 / (sq g * v0)) (sq i1 / (sq g * v1))
  if ratio ≤ 1 then
    let st := { st with tHvel := x.fx.now, rejHvel := false }
    let st := fuseVelPosHeight x i0 v0 0 st
    let st := fuseVelPosHeight x i1 v1 1 st
    ⟨st, (v0, v1), ratio, true⟩
  else ⟨{ st with lastFail := (i0, i1), rejHvel := true }, (v0, v1), ratio, false⟩

/-- `math::constrain` -/
def constr (v lo hi : ℝ) : ℝ := if v < lo then lo else if v > hi then hi else v

/-- `fuseVerticalVelocity`, EKF/vel_pos_fusion.cpp:79-112 -/
def fuseVerticalVelocity (x : VPIn) (i g r : ℝ) (st : VPSt) : VPOut :=
  let v := st.f.P 6 6 + r
  let ratio := sq i / (sq g * v)
  let st := { st with vvelRatio := i / Real.sqrt v, tVvelTry := x.fx.now }
  let pass := decide (ratio ≤ 1)
  let lim := g * Real.sqrt v
  let innovation := if x.badVertAccel && !pass then constr i (-lim) lim else i
  let pass := if x.badVertAccel && !pass then true else pass
  if pass then
    let st := { st with tVvel := x.fx.now, rejVvel := false }
    ⟨fuseVelPosHeight x innovation v 2 st, (v, v), ratio, true⟩
  else ⟨{ st with rejVvel := true }, (v, v), ratio, false⟩

/-- `fuseHorizontalPosition`, EKF/vel_pos_fusion.cpp:114-147 -/
def fuseHorizontalPosition (x : VPIn) (i0 i1 g r0 r1 : ℝ) (inhibitGate : Bool) (st : VPSt) : VPOut :=
  let v0 := st.f.P 7 7 + r0
  let v1 := st.f.P 8 8 + r1
  let ratio := max (sq i0 / (sq g * v0)) (sq i1 / (sq g * v1))
  if ratio ≤ 1 ∨ inhibitGate = true then
    if inhibitGate = true ∧ ratio > sq (100 / g) then ⟨st, (v0, v1), ratio, false⟩
    else
      let st := if !x.asOdom then { st with tHpos := x.fx.now } else { st with tDelpos := x.fx.now }
      let st := { st with rejHpos := false }
      let st := fuseVelPosHeight x i0 v0 3 st
      let st := fuseVelPosHeight x i1 v1 4 st
      ⟨st, (v0, v1), ratio, true⟩
  else ⟨{ st with rejHpos := true }, (v0, v1), ratio, false⟩

/-- `fuseVerticalPosition`, EKF/vel_pos_fusion.cpp:149-181 -/
def fuseVerticalPosition (x : VPIn) (i g r : ℝ) (st : VPSt) : VPOut :=
  let v := st.f.P 9 9 + r
  let ratio := sq i / (sq g * v)
  let st := { st with vposRatio := i / Real.sqrt v, tVposTry := x.fx.now }
  let pass := decide (ratio ≤ 1)
  let lim := g * Real.sqrt v
  let innovation := if x.badVertAccel && !pass then constr i (-lim) lim else i
  let pass := if x.badVertAccel && !pass then true else pass
  if pass then
    let st := { st with tHgt := x.fx.now, rejVpos := false }
    ⟨fuseVelPosHeight x innovation v 5 st, (v, v), ratio, true⟩
  else ⟨{ st with rejVpos := true }, (v, v), ratio, false⟩

/-! ## Specification -/

/-- Observation of a single state: the row of the identity -/
def Spec.pick (i : Fin N) : Vec ℝ := fun j => if j = i then 1 else 0

/-- Fusing a direct observation of state `i` with innovation `v` and innovation variance `S`: Kalman gain
`P(·, i) / S`, no state excluded -/
def Spec.directFusion (x : FixIn ℝ) (i : Fin N) (S v : ℝ) (f : Filt) : Filt × Bool :=
  Spec.applyGain x (fun j => f.P j i / S) (Spec.pick i) f v

/-- Fault flags after observation `o` was fused (`ok`) or found badly conditioned -/
def Spec.flagFault (flt : Fin 6 → Bool) (o : Fin 6) (ok : Bool) : Fin 6 → Bool := Function.update flt o (!ok)

end

theorem fuseVelPosHeight_spec (x : VPIn) (v S : ℝ) (o : Fin 6) (st : VPSt) :
    let r := Spec.directFusion x.fx (obsState o) S v st.f
    fuseVelPosHeight x v S o st = { st with f := r.1, fault := Spec.flagFault st.fault o r.2 } := by
  intro r
  have hr : r = Spec.directFusion x.fx (obsState o) S v st.f := rfl
  have hset : ∀ b, setFault st.fault o b = Function.update st.fault o b := by
    intro b; funext i; unfold setFault; rw [Function.update_apply]
  unfold Spec.directFusion Spec.applyGain at hr
  have hc : ∀ a j : Fin N, ∑ l, Spec.pick (obsState o) l * st.f.P l j = st.f.P (obsState o) j := by
    intro _ j; unfold Spec.pick; simp
  unfold fuseVelPosHeight Spec.flagFault
  simp only [hset]
  obtain ⟨C, hC⟩ : ∃ C : Mat ℝ, ∀ i c, st.f.P i (obsState o) / S * st.f.P (obsState o) c = C i c := ⟨_, fun _ _ => rfl⟩
  simp only [hc 0, hC] at hr
  simp only [hC]
  change (if (checkAndFix C st.f.P).2 = true then _ else _) = _
  obtain ⟨s1, s2⟩ := checkAndFix_spec C st.f.P
  by_cases hh : ∀ i, C i i ≤ st.f.P i i
  · have ht := s1.mpr hh
    rw [if_pos hh] at hr
    have : (checkAndFix C st.f.P).1 = st.f.P := by
      funext a b
      rw [s2, if_neg]
      push Not; exact ⟨hh a, hh b⟩
    rw [if_pos ht, hr]
    change _ = ({ st with f := _, fault := Function.update st.fault o (!true) } : VPSt)
    simp only [ht]
    rw [show (fun i j => (checkAndFix C st.f.P).1 i j - C i j) = fun i j => st.f.P i j - C i j by rw [this]]
  · have hf : (checkAndFix C st.f.P).2 = false := by
      cases h : (checkAndFix C st.f.P).2
      · rfl
      · exact absurd (s1.mp h) hh
    rw [if_neg hh] at hr
    have : (checkAndFix C st.f.P).1 = fun i j => if st.f.P i i < C i i ∨ st.f.P j j < C j j then 0 else st.f.P i j := by
      funext i j; exact s2 i j
    rw [if_neg (by rw [hf]; simp), hr]
    simp only [hf, this]

/-- with a valid covariance and an innovation variance larger than the state variance, a direct observation is applied,
and leaves exactly the expected fraction of the innovation -/
theorem directFusion_applied (x : FixIn ℝ) (i : Fin N) (S v : ℝ) (f : Filt) (hP : Spec.PSD f.P) (hS : 0 < S)
    (hi : f.P i i < S) :
    (Spec.directFusion x i S v f).2 = true ∧
    (Spec.directFusion x i S v f).1.s = fuseState f.s (fun j => f.P j i / S) v := by
  have hc : ∀ a j : Fin N, ∑ l, Spec.pick i l * f.P l j = f.P i j := by
    intro _ j; unfold Spec.pick; simp
  have key : ∀ j, f.P j i / S * ∑ l, Spec.pick i l * f.P l j ≤ f.P j j := by
    intro j
    rw [hc 0]
    have h1 := cauchy hP (Spec.pick j) (Spec.pick i) (sub_pos.mpr hi)
    have hform : ∀ a b, Spec.form f.P (Spec.pick a) (Spec.pick b) = f.P a b := by
      intro a b; unfold Spec.form Spec.pick; simp
    have hmv : ∑ l, Spec.pick j l * Spec.mulVec f.P (Spec.pick i) l = f.P j i := by
      unfold Spec.mulVec Spec.pick; simp
    unfold Spec.innovVar at h1
    rw [hform, hform, hmv] at h1
    have hsym : f.P i j = f.P j i := (hP.symm i j)
    rw [div_mul_eq_mul_div, div_le_iff₀ hS, hsym]
    nlinarith
  unfold Spec.directFusion Spec.applyGain
  simp only []
  rw [if_pos key]
  exact ⟨rfl, rfl⟩

section
variable (x : VPIn) (st : VPSt)

theorem ratio_le {i0 i1 g v0 v1 : ℝ} (hg : 0 < g) (h0 : 0 < v0) (h1 : 0 < v1) (c : ℝ) :
    max (sq i0 / (sq g * v0)) (sq i1 / (sq g * v1)) ≤ c ↔ i0 ^ 2 ≤ c * (g ^ 2 * v0) ∧ i1 ^ 2 ≤ c * (g ^ 2 * v1) := by
  have hs : ∀ y : ℝ, sq y = y ^ 2 := fun y => (pow_two y).symm
  rw [max_le_iff, hs, hs, hs, div_le_iff₀ (by positivity), div_le_iff₀ (by positivity)]

/-- **C35 (horizontal velocity).** The gate passes iff each innovation is within `g` standard deviations. If not: only the
rejection flag and the record of the last rejected innovation change. If it passes: the flag is cleared, the time stamp
refreshed, north then east fused. -/
theorem hvel_gate (i0 i1 g r0 r1 : ℝ) (hg : 0 < g) (h0 : 0 < st.f.P 4 4 + r0) (h1 : 0 < st.f.P 5 5 + r1) :
    let S0 := st.f.P 4 4 + r0
    let S1 := st.f.P 5 5 + r1
    let r := fuseHorizontalVelocity x i0 i1 g r0 r1 st
    (r.ret = true ↔ i0 ^ 2 ≤ g ^ 2 * S0 ∧ i1 ^ 2 ≤ g ^ 2 * S1) ∧
    r.var = (S0, S1) ∧ r.ratio = max (i0 ^ 2 / (g ^ 2 * S0)) (i1 ^ 2 / (g ^ 2 * S1)) ∧
    (r.ret = false → r.st = { st with lastFail := (i0, i1), rejHvel := true }) ∧
    (r.ret = true →
      let a := Spec.directFusion x.fx 4 S0 i0 st.f
      let b := Spec.directFusion x.fx 5 S1 i1 a.1
      r.st =
        { st with
          f := b.1, tHvel := x.fx.now, rejHvel := false
          fault := Spec.flagFault (Spec.flagFault st.fault 0 a.2) 1 b.2 }) := by
  intro S0 S1 r
  have hr : r = fuseHorizontalVelocity x i0 i1 g r0 r1 st := rfl
  have hle := ratio_le (i0 := i0) (i1 := i1) hg h0 h1 1
  unfold fuseHorizontalVelocity at hr
  simp only [fuseVelPosHeight_spec] at hr
  have hs : ∀ y : ℝ, sq y = y ^ 2 := fun y => (pow_two y).symm
  by_cases hp : max (sq i0 / (sq g * (st.f.P 4 4 + r0))) (sq i1 / (sq g * (st.f.P 5 5 + r1))) ≤ 1
  · rw [if_pos hp] at hr
    rw [hle] at hp
    simp only [one_mul] at hp
    rw [hr]
    refine ⟨by simpa using hp, rfl, by simp only [hs]; rfl, fun h => by simp at h, fun _ => rfl⟩
  · rw [if_neg hp] at hr
    rw [hle] at hp
    simp only [one_mul] at hp
    rw [hr]
    refine ⟨⟨fun h => by simp at h, fun h => absurd h hp⟩, rfl, by simp only [hs]; rfl, fun _ => rfl, fun h => by simp at h⟩

/-- **C35 (horizontal position).** As for velocity; when the caller inhibits the gate the limit is 100 standard deviations
and an innovation beyond it is ignored without touching the rejection flag. The time stamp refreshed is the one of the
mode in use (absolute or odometry). -/
theorem hpos_gate (i0 i1 g r0 r1 : ℝ) (inh : Bool) (hg : 0 < g) (h0 : 0 < st.f.P 7 7 + r0) (h1 : 0 < st.f.P 8 8 + r1) :
    let S0 := st.f.P 7 7 + r0
    let S1 := st.f.P 8 8 + r1
    let G := if inh then 100 else g
    let r := fuseHorizontalPosition x i0 i1 g r0 r1 inh st
    (r.ret = true ↔ i0 ^ 2 ≤ G ^ 2 * S0 ∧ i1 ^ 2 ≤ G ^ 2 * S1) ∧
    r.var = (S0, S1) ∧ r.ratio = max (i0 ^ 2 / (g ^ 2 * S0)) (i1 ^ 2 / (g ^ 2 * S1)) ∧
    (r.ret = false → r.st = if inh then st else { st with rejHpos := true }) ∧
    (r.ret = true →
      let a := Spec.directFusion x.fx 7 S0 i0 st.f
      let b := Spec.directFusion x.fx 8 S1 i1 a.1
      r.st =
        { st with
          f := b.1, rejHpos := false
          tHpos := if x.asOdom then st.tHpos else x.fx.now
          tDelpos := if x.asOdom then x.fx.now else st.tDelpos
          fault := Spec.flagFault (Spec.flagFault st.fault 3 a.2) 4 b.2 }) := by
  intro S0 S1 G r
  have hr : r = fuseHorizontalPosition x i0 i1 g r0 r1 inh st := rfl
  have hle := ratio_le (i0 := i0) (i1 := i1) hg h0 h1 1
  have hl2 := ratio_le (i0 := i0) (i1 := i1) hg h0 h1 (sq (100 / g))
  have hs : ∀ y : ℝ, sq y = y ^ 2 := fun y => (pow_two y).symm
  have h100 : ∀ v : ℝ, sq (100 / g) * (g ^ 2 * v) = 100 ^ 2 * v := by
    intro v; rw [hs]; field_simp
  rw [h100, h100] at hl2
  simp only [one_mul] at hle
  unfold fuseHorizontalPosition at hr
  simp only [fuseVelPosHeight_spec] at hr
  cases inh
  · simp only [Bool.false_eq_true, or_false, false_and, if_false] at hr
    have hG : G = g := rfl
    rw [hG]
    by_cases hp : max (sq i0 / (sq g * (st.f.P 7 7 + r0))) (sq i1 / (sq g * (st.f.P 8 8 + r1))) ≤ 1
    · rw [if_pos hp] at hr
      rw [hle] at hp
      rw [hr]
      refine ⟨by simpa using hp, rfl, by simp only [hs]; rfl, fun h => by simp at h, fun _ => ?_⟩
      cases x.asOdom <;> rfl
    · rw [if_neg hp] at hr
      rw [hle] at hp
      rw [hr]
      exact ⟨⟨fun h => by simp at h, fun h => absurd h hp⟩, rfl, by simp only [hs]; rfl, fun _ => rfl, fun h => by simp at h⟩
  · simp only [or_true, true_and, if_true] at hr
    have hG : G = 100 := rfl
    rw [hG]
    by_cases hp : max (sq i0 / (sq g * (st.f.P 7 7 + r0))) (sq i1 / (sq g * (st.f.P 8 8 + r1))) > sq (100 / g)
    · rw [if_pos hp] at hr
      rw [gt_iff_lt, ← not_le, hl2] at hp
      rw [hr]
      exact ⟨⟨fun h => by simp at h, fun h => absurd h hp⟩, rfl, by simp only [hs]; rfl, fun _ => rfl, fun h => by simp at h⟩
    · rw [if_neg hp] at hr
      rw [gt_iff_lt, not_lt, hl2] at hp
      rw [hr]
      refine ⟨by simpa using hp, rfl, by simp only [hs]; rfl, fun h => by simp at h, fun _ => ?_⟩
      cases x.asOdom <;> rfl

/-- limit of an innovation to ±`L` -/
theorem constr_eq (v L : ℝ) (hL : 0 ≤ L) : constr v (-L) L = max (-L) (min v L) := by
  unfold constr
  rcases lt_or_ge v (-L) with h | h
  · rw [if_pos h, min_eq_left (by linarith), max_eq_left h.le]
  · rw [if_neg (not_lt.mpr h)]
    rcases lt_or_ge L v with h' | h'
    · rw [if_pos h', min_eq_right h'.le, max_eq_right (by linarith)]
    · rw [if_neg (not_lt.mpr h'), min_eq_left h', max_eq_right h]

theorem vert_gate {i g v : ℝ} (hg : 0 < g) (hv : 0 < v) : sq i / (sq g * v) ≤ 1 ↔ i ^ 2 ≤ g ^ 2 * v := by
  have hs : ∀ y : ℝ, sq y = y ^ 2 := fun y => (pow_two y).symm
  rw [hs, hs, div_le_one (by positivity)]

theorem vert_lim {i g v : ℝ} (hg : 0 < g) (hv : 0 < v) (b : Bool) :
    (if b && !decide (sq i / (sq g * v) ≤ 1) then constr i (-(g * Real.sqrt v)) (g * Real.sqrt v) else i)
      = if b then max (-(g * Real.sqrt v)) (min i (g * Real.sqrt v)) else i := by
  have hsv := Real.sqrt_nonneg v
  have hL : 0 ≤ g * Real.sqrt v := by positivity
  cases b
  · simp
  · rw [if_pos rfl]
    by_cases h : sq i / (sq g * v) ≤ 1
    · rw [if_neg (by simp [h])]
      rw [vert_gate hg hv] at h
      have habs : |i| ≤ g * Real.sqrt v := by
        apply abs_le_of_sq_le_sq _ hL
        rw [mul_pow, Real.sq_sqrt hv.le]; exact h
      obtain ⟨a, b⟩ := abs_le.mp habs
      rw [min_eq_left b, max_eq_right a]
    · rw [if_pos (by simp [h]), constr_eq _ _ hL]

/-- **C35 (vertical velocity).** Passes iff within the gate, or the vertical acceleration is flagged bad, in which case the
innovation used is limited to the gate. Otherwise only the rejection flag and the attempt bookkeeping change. -/
theorem vvel_gate (i g r : ℝ) (hg : 0 < g) (h : 0 < st.f.P 6 6 + r) :
    let S := st.f.P 6 6 + r
    let L := g * Real.sqrt S
    let o := fuseVerticalVelocity x i g r st
    let st0 : VPSt := { st with vvelRatio := i / Real.sqrt S, tVvelTry := x.fx.now }
    (o.ret = true ↔ i ^ 2 ≤ g ^ 2 * S ∨ x.badVertAccel = true) ∧
    o.var = (S, S) ∧ o.ratio = i ^ 2 / (g ^ 2 * S) ∧
    (o.ret = false → o.st = { st0 with rejVvel := true }) ∧
    (o.ret = true →
      let a := Spec.directFusion x.fx 6 S (if x.badVertAccel then max (-L) (min i L) else i) st.f
      o.st = { st0 with f := a.1, tVvel := x.fx.now, rejVvel := false, fault := Spec.flagFault st.fault 2 a.2 }) := by
  intro S L o st0
  have hr : o = fuseVerticalVelocity x i g r st := rfl
  have hs : ∀ y : ℝ, sq y = y ^ 2 := fun y => (pow_two y).symm
  unfold fuseVerticalVelocity at hr
  simp only [fuseVelPosHeight_spec, vert_lim hg h] at hr
  have hgate := vert_gate (i := i) hg h
  by_cases hp : sq i / (sq g * (st.f.P 6 6 + r)) ≤ 1
  · rw [if_pos (by simp [hp])] at hr
    rw [hr]
    rw [hgate] at hp
    exact ⟨by simpa using Or.inl hp, rfl, by simp only [hs]; rfl, fun h => by simp at h, fun _ => rfl⟩
  · cases hb : x.badVertAccel
    · rw [if_neg (by simp [hp, hb])] at hr
      rw [hr]
      rw [hgate] at hp
      exact ⟨⟨fun h => by simp at h, fun h => by rcases h with h | h <;> [exact absurd h hp; cases h]⟩, rfl,
        by simp only [hs]; rfl, fun _ => rfl, fun h => by simp at h⟩
    · rw [if_pos (by simp [hp, hb])] at hr
      rw [hr]
      refine ⟨by simp, rfl, by simp only [hs]; rfl, fun h => by simp at h, fun _ => ?_⟩
      simp only [hb]; rfl

/-- **C35 (vertical position).** As for vertical velocity. -/
theorem vpos_gate (i g r : ℝ) (hg : 0 < g) (h : 0 < st.f.P 9 9 + r) :
    let S := st.f.P 9 9 + r
    let L := g * Real.sqrt S
    let o := fuseVerticalPosition x i g r st
    let st0 : VPSt := { st with vposRatio := i / Real.sqrt S, tVposTry := x.fx.now }
    (o.ret = true ↔ i ^ 2 ≤ g ^ 2 * S ∨ x.badVertAccel = true) ∧
    o.var = (S, S) ∧ o.ratio = i ^ 2 / (g ^ 2 * S) ∧
    (o.ret = false → o.st = { st0 with rejVpos := true }) ∧
    (o.ret = true →
      let a := Spec.directFusion x.fx 9 S (if x.badVertAccel then max (-L) (min i L) else i) st.f
      o.st = { st0 with f := a.1, tHgt := x.fx.now, rejVpos := false, fault := Spec.flagFault st.fault 5 a.2 }) := by
  intro S L o st0
  have hr : o = fuseVerticalPosition x i g r st := rfl
  have hs : ∀ y : ℝ, sq y = y ^ 2 := fun y => (pow_two y).symm
  unfold fuseVerticalPosition at hr
  simp only [fuseVelPosHeight_spec, vert_lim hg h] at hr
  have hgate := vert_gate (i := i) hg h
  by_cases hp : sq i / (sq g * (st.f.P 9 9 + r)) ≤ 1
  · rw [if_pos (by simp [hp])] at hr
    rw [hr]
    rw [hgate] at hp
    exact ⟨by simpa using Or.inl hp, rfl, by simp only [hs]; rfl, fun h => by simp at h, fun _ => rfl⟩
  · cases hb : x.badVertAccel
    · rw [if_neg (by simp [hp, hb])] at hr
      rw [hr]
      rw [hgate] at hp
      exact ⟨⟨fun h => by simp at h, fun h => by rcases h with h | h <;> [exact absurd h hp; cases h]⟩, rfl,
        by simp only [hs]; rfl, fun _ => rfl, fun h => by simp at h⟩
    · rw [if_pos (by simp [hp, hb])] at hr
      rw [hr]
      refine ⟨by simp, rfl, by simp only [hs]; rfl, fun h => by simp at h, fun _ => ?_⟩
      simp only [hb]; rfl

end

/-- **Direct observations pull the state towards the measurement.** With a valid covariance and observation variance `R > 0`,
fusing a measurement `z` of a velocity or position state leaves the fraction `R / (P + R)` of the disagreement: the state
never moves past the measurement. -/
theorem direct_observation_residual (x : FixIn ℝ) (o : Fin 6) (z R : ℝ) (f : Filt) (hP : Spec.PSD f.P) (hR : 0 < R) :
    let i := obsState o
    let S := f.P i i + R
    let r := Spec.directFusion x i S (f.s i - z) f
    r.2 = true ∧ r.1.s i - z = (f.s i - z) * (R / S) := by
  intro i S r
  have h0 := diag_nonneg hP i
  have hS : 0 < S := by show 0 < f.P i i + R; linarith
  obtain ⟨h1, h2⟩ := directFusion_applied x i S (f.s i - z) f hP hS (by show f.P i i < f.P i i + R; linarith)
  refine ⟨h1, ?_⟩
  have : r.1.s i = f.s i - f.P i i / S * (f.s i - z) := by
    show (Spec.directFusion x i S (f.s i - z) f).1.s i = _
    rw [h2]
    unfold fuseState
    have : ¬ i.val < 4 := by show ¬ (o.val + 4 < 4); omega
    simp only [if_neg this]
  rw [this]
  have : R = S - f.P i i := by show R = f.P i i + R - f.P i i; ring
  rw [this]
  field_simp
  ring

/-- **C87 (direct observations).** Velocity and position fusion correct every state by `P(·,i)/S` times the innovation,
accelerometer bias states with inhibited learning included. -/
theorem direct_observation_corrects_inhibited (x : FixIn ℝ) (i : Fin N) (S v : ℝ) (f : Filt) (hP : Spec.PSD f.P) (hS : 0 < S)
    (hi : f.P i i < S) (a : Fin 3) :
    (Spec.directFusion x i S v f).1.s (accIdx a) = f.s (accIdx a) - f.P (accIdx a) i / S * v := by
  rw [(directFusion_applied x i S v f hP hS hi).2]
  unfold fuseState
  have : ¬ (accIdx a).val < 4 := by unfold accIdx; simp; omega
  simp only [if_neg this]

/-- an example instance: identity covariance -/
def exVP (f : Filt) : VPSt :=
  { f := f, fault := fun _ => false, tHvel := 0, tVvel := 0, tHpos := 0, tDelpos := 0, tHgt := 0, tVvelTry := 0, tVposTry := 0,
    rejHvel := true, rejVvel := false, rejHpos := false, rejVpos := false, lastFail := (0, 0), vvelRatio := 0, vposRatio := 0 }

/-- hypotheses are satisfiable: identity covariance, observation variance 1, innovations 1 and 2, 3-sigma gate passes; 5 m/s is
rejected -/
example : Spec.PSD (exFilt).P ∧ (fuseHorizontalVelocity ⟨⟨fun _ => false, true, true, 1/100, 0, false⟩, false, false⟩ 1 2 3 1 1 (exVP exFilt)).ret = true ∧
    (fuseHorizontalVelocity ⟨⟨fun _ => false, true, true, 1/100, 0, false⟩, false, false⟩ 1 5 3 1 1 (exVP exFilt)).ret = false := by
  have hd : ∀ i, (exVP exFilt).f.P i i = 1 := by intro i; simp [exVP, exFilt, Filt.P]
  refine ⟨idCov_psd, ?_, ?_⟩
  · rw [(hvel_gate _ (exVP exFilt) 1 2 3 1 1 (by norm_num) (by rw [hd]; norm_num) (by rw [hd]; norm_num)).1, hd, hd]; norm_num
  · have := (hvel_gate ⟨⟨fun _ => false, true, true, 1/100, 0, false⟩, false, false⟩ (exVP exFilt) 1 5 3 1 1 (by norm_num) (by rw [hd]; norm_num) (by rw [hd]; norm_num)).1
    rw [hd, hd] at this
    rw [← Bool.not_eq_true, this]; norm_num

end Ecl.Fusion
