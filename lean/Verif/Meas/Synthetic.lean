import Verif.Meas.Reset
import Verif.Meas.GpsMeas

/-!
# Synthetic position and auxiliary velocity, numerically — EKF/control.cpp:1282-1357

When they are used is in `Verif/Aid` (C110, C112).
-/

namespace Ecl.Meas

open Ecl.Ekf Ecl.Cov Ecl.Fusion
open scoped Matrix

noncomputable section

/-- `fake_pos_obs_var`, EKF/control.cpp:1311-1322 -/
def fakeVar (inAir tilt atRest : Bool) (noaid gpsNoise : ℝ) : ℝ :=
  if inAir && tilt then sq (max noaid gpsNoise)
  else if atRest then sq (1 / 10)
  else sq (1 / 2)

/-- the fusion, EKF/control.cpp:1324-1329 -/
def fakeFuse (x : VPIn) (r : ℝ) (lastKnown : Fin 2 → ℝ) (st : VPSt) : VPOut :=
  fuseHorizontalPosition x (st.f.s 7 - lastKnown 0) (st.f.s 8 - lastKnown 1) 3 r r true st

/-- re-commencing, EKF/control.cpp:1298-1302; `_last_known_posNE` is set to the current position first -/
def fakeStart (x : RIn) (f : Flt) : Flt :=
  let x := { x with lastKnown := ![f.est.state.pos 0, f.est.state.pos 1] }
  resetVelocity x (resetHorizontalPosition x f)

/-- `_auxvel_sample_delayed` -/
structure AuxData where
  vel : V3 ℝ
  velVar : V3 ℝ

/-- `_last_vel_obs`, `_last_vel_obs_var`, `_aux_vel_innov_var`, `_aux_vel_innov` -/
structure AuxMem where
  lastVel : V3 ℝ
  lastVelVar : V3 ℝ
  innovVar : V3 ℝ
  innov : V3 ℝ

/-- `controlAuxVelFusion` with a sample and horizontal aiding, EKF/control.cpp:1341-1350; `gate` = `_params.auxvel_gate` -/
def auxFuse (x : VPIn) (gate : ℝ) (d : AuxData) (m : AuxMem) (st : VPSt) : AuxMem × VPOut :=
  let innov : V3 ℝ := ![st.f.s 4 - d.vel 0, st.f.s 5 - d.vel 1, st.f.s 6 - d.vel 2]
  let r := fuseHorizontalVelocity x (innov 0) (innov 1) gate (d.velVar 0) (d.velVar 1) st
  ({ lastVel := d.vel, lastVelVar := m.innovVar, innov := innov, innovVar := ![r.var.1, r.var.2, m.innovVar 2] }, r)

end

/-- **C127 (start).** When synthetic position is re-commenced (no horizontal source in use) the position estimate stays where it is, all outputs keep
their position, the horizontal velocity becomes zero with variance 25 m²/s², and the position variance the no-aiding noise squared. -/
theorem synthetic_start (x : RIn) (f : Flt) (hg : x.gps = false) (ho : x.optFlow = false) (hv : x.evVel = false) (hp : x.evPos = false) :
    let f' := fakeStart x f
    (∀ i, f'.est.state.pos i = f.est.state.pos i) ∧ f'.est.state.vel 0 = 0 ∧ f'.est.state.vel 1 = 0 ∧ f'.est.state.vel 2 = f.est.state.vel 2 ∧
    (∃ dv, Ekf.Spec.ShiftedBy f.est f'.est dv 0) ∧
    f'.P 4 4 = 25 ∧ f'.P 5 5 = 25 ∧ f'.P 7 7 = x.noaid ^ 2 ∧ f'.P 8 8 = x.noaid ^ 2 ∧ f'.hposPrev = false := by
  intro f'
  let y : RIn := { x with lastKnown := ![f.est.state.pos 0, f.est.state.pos 1] }
  have hy : f' = resetVelocity y (resetHorizontalPosition y f) := rfl
  have h1 : Spec.posSrc y = .lastKnown := by
    unfold Spec.posSrc
    rw [if_neg (by show ¬ x.gps = true; rw [hg]; decide), if_neg (by show ¬ x.evPos = true; rw [hp]; decide),
      if_neg (by show ¬ (x.optFlow = true ∧ _); rw [ho]; simp)]
  have h2 : Spec.velSrc y = .none := by
    unfold Spec.velSrc
    rw [if_neg (by show ¬ (x.gps = true ∧ _); rw [hg]; simp), if_neg (by show ¬ x.optFlow = true; rw [ho]; decide),
      if_neg (by show ¬ x.evVel = true; rw [hv]; decide)]
  obtain ⟨p1, p2, ⟨dp, p3, p3'⟩, p4⟩ := position_reset y f
  obtain ⟨v1, v2, ⟨dv, v3⟩, v4⟩ := velocity_reset y (resetHorizontalPosition y f)
  have ht : Spec.velTarget y (resetHorizontalPosition y f).est.state = ![some 0, some 0, none] := by unfold Spec.velTarget; rw [h2]
  have hw : Spec.velVar y (resetHorizontalPosition y f).est.state = fun _ => 25 := by unfold Spec.velVar; rw [h2]
  have hpt : Spec.posTarget y = y.lastKnown := by unfold Spec.posTarget; rw [h1]
  have hpv : Spec.posVar y = fun _ => x.noaid ^ 2 := by
    unfold Spec.posVar; rw [h1]
    funext i
    show (if x.optFlow = true then (0 : ℝ) else x.noaid ^ 2) = _
    rw [ho, if_neg (by decide)]
  rw [ht, hw] at v1
  rw [hpt, hpv] at p1
  rw [ht] at v2
  have a0 := v1 0
  have a1 := v1 1
  have a2 := v1 2
  have b0 := p1 0
  have b1 := p1 1
  have k7 : ∀ k : Fin 3, velIdx k ≠ 7 := by decide
  have k8 : ∀ k : Fin 3, velIdx k ≠ 8 := by decide
  have hpos : ∀ i, (resetVelocity y (resetHorizontalPosition y f)).est.state.pos i = (resetHorizontalPosition y f).est.state.pos i := by
    intro i
    have := v3.pos
    rw [this]; simp
  have hdp : dp = 0 := by
    have e := p3.pos
    funext i
    have ei := congrFun e i
    rw [Pi.add_apply] at ei
    fin_cases i
    · have := b0.1
      change (resetHorizontalPosition y f).est.state.pos 0 = f.est.state.pos 0 at this
      rw [show (resetHorizontalPosition y f).est.state.pos ((fun i => i) ⟨0, by decide⟩ : Fin 3) = _ from this] at ei
      simp at ei ⊢; exact ei
    · have := b1.1
      change (resetHorizontalPosition y f).est.state.pos 1 = f.est.state.pos 1 at this
      rw [show (resetHorizontalPosition y f).est.state.pos ((fun i => i) ⟨1, by decide⟩ : Fin 3) = _ from this] at ei
      simp at ei ⊢; exact ei
    · exact p3'
  subst hdp
  rw [hy]
  have hvel : (resetHorizontalPosition y f).est.state.vel 2 = f.est.state.vel 2 := by
    have := p3.vel
    rw [this]; simp
  refine ⟨fun i => ?_, a0.1, a1.1, ?_, ?_, a0.2.1, a1.2.1, ?_, ?_, ?_⟩
  · rw [hpos, p3.pos]; simp
  · exact Eq.trans a2 hvel
  · have := p3.trans v3
    rw [zero_add, add_zero] at this
    exact ⟨_, this⟩
  · rw [v2 7 7 fun k _ => ⟨k7 k, k7 k⟩]; exact b0.2.1
  · rw [v2 8 8 fun k _ => ⟨k8 k, k8 k⟩]; exact b1.2.1
  · rw [v4]; exact p4

/-- **C127 (noise).** In flight with known tilt the larger of the no-aiding and GPS noise; otherwise 0.1 m at rest and 0.5 m in motion. -/
theorem synthetic_noise (inAir tilt atRest : Bool) (noaid gpsNoise : ℝ) :
    fakeVar inAir tilt atRest noaid gpsNoise =
      (if inAir = true ∧ tilt = true then max noaid gpsNoise else if atRest = true then 1 / 10 else 1 / 2) ^ 2 := by
  unfold fakeVar sq
  cases inAir <;> cases tilt <;> cases atRest <;> simp [pow_two]

/-- **C127 (hold).** With a valid covariance and positive noise, a synthetic measurement is used unless the position is more than 100 standard
deviations from the last known one, in which case nothing changes; used, it pulls the north position towards it by the Kalman factor, never
past it. -/
theorem synthetic_hold (x : VPIn) (r : ℝ) (lk : Fin 2 → ℝ) (st : VPSt) (hP : Cov.Spec.PSD st.f.P) (hr : 0 < r) :
    let o := fakeFuse x r lk st
    (o.ret = true ↔ (st.f.s 7 - lk 0) ^ 2 ≤ 100 ^ 2 * (st.f.P 7 7 + r) ∧ (st.f.s 8 - lk 1) ^ 2 ≤ 100 ^ 2 * (st.f.P 8 8 + r)) ∧
    (o.ret = false → o.st = st) ∧
    (o.ret = true →
      let a := Fusion.Spec.directFusion x.fx 7 (st.f.P 7 7 + r) (st.f.s 7 - lk 0) st.f
      let b := Fusion.Spec.directFusion x.fx 8 (st.f.P 8 8 + r) (st.f.s 8 - lk 1) a.1
      o.st.f = b.1 ∧ a.1.s 7 - lk 0 = (st.f.s 7 - lk 0) * (r / (st.f.P 7 7 + r))) := by
  intro o
  have h7 := diag_nonneg hP 7
  have h8 := diag_nonneg hP 8
  obtain ⟨g1, -, -, g2, g3⟩ := hpos_gate x st (st.f.s 7 - lk 0) (st.f.s 8 - lk 1) 3 r r true (by norm_num) (by linarith) (by linarith)
  simp only [if_true] at g1 g2
  refine ⟨g1, fun h => g2 h, fun h => ?_⟩
  · refine ⟨?_, (direct_observation_residual x.fx 3 (lk 0) r st.f hP hr).2⟩
    have := g3 h
    show (fuseHorizontalPosition x _ _ 3 r r true st).st.f = _
    rw [this]

/-- **C127 (auxiliary velocity).** The horizontal velocity is compared with the sample as it is (earth frame, no lever arm), within `gate` standard
deviations of state and sample together; a rejected sample leaves the filter alone; the vertical velocity of the sample is not fused. -/
theorem aux_velocity (x : VPIn) (gate : ℝ) (d : AuxData) (m : AuxMem) (st : VPSt) (hg : 0 < gate) (h0 : 0 < st.f.P 4 4 + d.velVar 0)
    (h1 : 0 < st.f.P 5 5 + d.velVar 1) :
    let r := auxFuse x gate d m st
    (r.2.ret = true ↔ (st.f.s 4 - d.vel 0) ^ 2 ≤ gate ^ 2 * (st.f.P 4 4 + d.velVar 0) ∧ (st.f.s 5 - d.vel 1) ^ 2 ≤ gate ^ 2 * (st.f.P 5 5 + d.velVar 1)) ∧
    (r.2.ret = false → r.2.st.f = st.f) ∧
    (∀ z, (auxFuse x gate { d with vel := ![d.vel 0, d.vel 1, z] } m st).2 = r.2) ∧
    r.1.lastVel = d.vel ∧ r.1.innovVar = ![st.f.P 4 4 + d.velVar 0, st.f.P 5 5 + d.velVar 1, m.innovVar 2] := by
  intro r
  obtain ⟨g1, g2, -, g3, -⟩ := hvel_gate x st (st.f.s 4 - d.vel 0) (st.f.s 5 - d.vel 1) gate (d.velVar 0) (d.velVar 1) hg h0 h1
  refine ⟨g1, fun h => ?_, fun z => rfl, rfl, ?_⟩
  · show (fuseHorizontalVelocity x (st.f.s 4 - d.vel 0) (st.f.s 5 - d.vel 1) gate (d.velVar 0) (d.velVar 1) st).st.f = _
    rw [g3 h]
  · show ![(fuseHorizontalVelocity x (st.f.s 4 - d.vel 0) (st.f.s 5 - d.vel 1) gate (d.velVar 0) (d.velVar 1) st).var.1,
      (fuseHorizontalVelocity x (st.f.s 4 - d.vel 0) (st.f.s 5 - d.vel 1) gate (d.velVar 0) (d.velVar 1) st).var.2, _] = _
    rw [g2]

/-- **C127 (finding).** The variance kept with the last velocity observation — used to decide whether that observation may blame the heading (C126) —
is not the variance of the sample but the innovation variance of the auxiliary sample before: for the first one it is whatever the
estimator started with (zero), for every later one it includes the state variance of an earlier time. -/
theorem aux_variance_stale (x x' : VPIn) (gate gate' : ℝ) (d d' : AuxData) (m : AuxMem) (st st' : VPSt) (hg : 0 < gate) (h0 : 0 < st.f.P 4 4 + d.velVar 0)
    (h1 : 0 < st.f.P 5 5 + d.velVar 1) :
    let m1 := (auxFuse x gate d m st).1
    let m2 := (auxFuse x' gate' d' m1 st').1
    m1.lastVelVar = m.innovVar ∧ m2.lastVel = d'.vel ∧ m2.lastVelVar = ![st.f.P 4 4 + d.velVar 0, st.f.P 5 5 + d.velVar 1, m.innovVar 2] :=
  ⟨rfl, rfl, (aux_velocity x gate d m st hg h0 h1).2.2.2.2⟩

/-- Non-vacuity of `synthetic_start`: nothing in use, moving at (1, 2, 3) m/s. -/
example : ∃ x : RIn, x.gps = false ∧ x.optFlow = false ∧ x.evVel = false ∧ x.evPos = false ∧ exFlt.est.state.vel 1 = 2 :=
  ⟨{ exRIn with gps := false }, rfl, rfl, rfl, rfl, rfl⟩

/-- Non-vacuity of the fusion theorems: identity covariance, noise 1, gate 3. -/
example : Cov.Spec.PSD (exVP exFilt).f.P ∧ 0 < (exVP exFilt).f.P 4 4 + 1 ∧ 0 < (exVP exFilt).f.P 5 5 + 1 := by
  refine ⟨idCov_psd, ?_, ?_⟩ <;> simp [exVP, exFilt, Filt.P]

end Ecl.Meas
