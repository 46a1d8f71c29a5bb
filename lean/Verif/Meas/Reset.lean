import Verif.Ekf.ResetProps
import Verif.Cov.Props2
import Verif.Fusion.Flow

/-!
# Velocity and horizontal position resets — EKF/ekf_helper.cpp:49-120, 162-220

Which sensor the estimate is reset to, with which value and which variance.  The shift of the output predictor is in `Verif/Ekf/Reset.lean`.
-/

namespace Ecl.Meas

open Ecl.Ekf Ecl.Cov
open scoped Matrix

noncomputable section

/-- what the resets read -/
structure RIn where
  gps : Bool
  optFlow : Bool
  evVel : Bool
  evPos : Bool
  inAir : Bool
  /-- `isTimedOut(_last_gps_fail_us, _min_gps_health_time_us)`: no failed GPS check in the last 10 s (default) -/
  gpsHealthy : Bool
  /-- `_gps_sample_delayed` -/
  gpsVel : V3 ℝ
  gpsSacc : ℝ
  gpsPos : Fin 2 → ℝ
  gpsHacc : ℝ
  /-- `_terrain_vpos`, `_params.rng_gnd_clearance`, `_range_sensor.getCosTilt()` -/
  terrain : ℝ
  clearance : ℝ
  cosTilt : ℝ
  /-- `_flow_compensated_XY_rad`, `_flow_sample_delayed.dt`, `calcOptFlowMeasVar()` -/
  flow : Fin 2 → ℝ
  flowDt : ℝ
  flowVar : ℝ
  /-- `_R_to_earth` -/
  R : M3 ℝ
  /-- `getVisionVelocityInEkfFrame()`, `getVisionVelocityVarianceInEkfFrame()` -/
  visVel : V3 ℝ
  visVelVar : V3 ℝ
  /-- `_ev_sample_delayed.pos`, `.posVar`; `MASK_ROTATE_EV`, `_R_ev_to_ekf` -/
  evPosMeas : V3 ℝ
  evPosVar : V3 ℝ
  rotateEv : Bool
  REv : M3 ℝ
  /-- `_last_known_posNE`, `_params.pos_noaid_noise` -/
  lastKnown : Fin 2 → ℝ
  noaid : ℝ

/-- the estimator with its covariance; `hposPrev` = `_hpos_prev_available` -/
structure Flt where
  est : Est ℝ
  P : Mat ℝ
  hposPrev : Bool

/-- set the variances of the horizontal / all velocity states (4, 5, 6) or horizontal position states (7, 8), the entry of state `first + k`
being `v k` -/
def blkVar (first : ℕ) (v : ℕ → ℝ) : Fin N → ℝ := fun i => v (i.val - first)

/-- `resetVelocityToGps`, EKF/ekf_helper.cpp:66-72 -/
def velToGps (x : RIn) (f : Flt) : Flt :=
  { f with est := f.est.resetVelocityTo x.gpsVel, P := uncorrSet 4 3 (fun _ => sq x.gpsSacc) f.P }

/-- `range`, EKF/ekf_helper.cpp:78-82 -/
def flowResetRange (x : RIn) (s : State ℝ) : ℝ := max (x.terrain - s.pos 2) x.clearance / x.cosTilt

/-- `resetHorizontalVelocityToOpticalFlow`, EKF/ekf_helper.cpp:74-103 -/
def velToFlow (x : RIn) (f : Flt) : Flt :=
  open Classical in
  let range := flowResetRange x f.est.state
  let e :=
    if range - x.clearance > 3 / 10 then
      let vb : V3 ℝ := ![-range * x.flow 1 / x.flowDt, range * x.flow 0 / x.flowDt, 0]
      let ve := x.R *ᵥ vb
      f.est.resetHorizontalVelocityTo ![ve 0, ve 1]
    else f.est.resetHorizontalVelocityTo ![0, 0]
  { f with est := e, P := uncorrSet 4 2 (fun _ => sq range * x.flowVar) f.P }

/-- `resetVelocityToVision`, EKF/ekf_helper.cpp:105-111 -/
def velToVision (x : RIn) (f : Flt) : Flt :=
  { f with est := f.est.resetVelocityTo x.visVel,
           P := uncorrSet 4 3 (blkVar 4 fun k => if k = 0 then x.visVelVar 0 else if k = 1 then x.visVelVar 1 else x.visVelVar 2) f.P }

/-- `resetHorizontalVelocityToZero`, EKF/ekf_helper.cpp:113-120 -/
def velToZero (f : Flt) : Flt :=
  { f with est := f.est.resetHorizontalVelocityTo ![0, 0], P := uncorrSet 4 2 (fun _ => 25) f.P }

/-- `resetVelocity`, EKF/ekf_helper.cpp:49-64 -/
def resetVelocity (x : RIn) (f : Flt) : Flt :=
  if x.gps && x.gpsHealthy then velToGps x f
  else if x.optFlow then velToFlow x f
  else if x.evVel then velToVision x f
  else velToZero f

/-- `resetHorizontalPositionToGps`, EKF/ekf_helper.cpp:197-203 -/
def posToGps (x : RIn) (f : Flt) : Flt :=
  { f with est := f.est.resetHorizontalPositionTo x.gpsPos, P := uncorrSet 7 2 (fun _ => sq x.gpsHacc) f.P }

/-- `resetHorizontalPositionToVision`, EKF/ekf_helper.cpp:205-217 -/
def posToVision (x : RIn) (f : Flt) : Flt :=
  let p := if x.rotateEv then x.REv *ᵥ x.evPosMeas else x.evPosMeas
  { f with est := f.est.resetHorizontalPositionTo ![p 0, p 1],
           P := uncorrSet 7 2 (blkVar 7 fun k => if k = 0 then x.evPosVar 0 else x.evPosVar 1) f.P }

/-- `resetHorizontalPosition`, EKF/ekf_helper.cpp:162-195 -/
def resetHorizontalPosition (x : RIn) (f : Flt) : Flt :=
  let f := { f with hposPrev := false }
  if x.gps then posToGps x f
  else if x.evPos then posToVision x f
  else if x.optFlow then
    let e := if !x.inAir then f.est.resetHorizontalPositionTo ![0, 0] else f.est.resetHorizontalPositionTo x.lastKnown
    { f with est := e, P := uncorrSet 7 2 (fun _ => 0) f.P }
  else { f with est := f.est.resetHorizontalPositionTo x.lastKnown, P := uncorrSet 7 2 (fun _ => sq x.noaid) f.P }

end

/-! ## Specification -/

namespace Spec

/-- the sensor a velocity reset uses, in this order of preference -/
inductive VelSrc | gps | flow | vision | none
deriving DecidableEq

/-- GPS if used and without a failed check for the health time; else optical flow; else vision velocity; else nothing -/
def velSrc (x : RIn) : VelSrc :=
  if x.gps = true ∧ x.gpsHealthy = true then .gps
  else if x.optFlow = true then .flow
  else if x.evVel = true then .vision
  else .none

/-- the sensor a position reset uses -/
inductive PosSrc | gps | vision | origin | lastKnown
deriving DecidableEq

/-- GPS if used (healthy or not); else vision position; else the origin when starting flow on the ground; else the last known position -/
def posSrc (x : RIn) : PosSrc :=
  if x.gps = true then .gps
  else if x.evPos = true then .vision
  else if x.optFlow = true ∧ x.inAir = false then .origin
  else .lastKnown

noncomputable section
open Classical

/-- the velocity measured by the source; `none` for a component that is not reset -/
def velTarget (x : RIn) (s : State ℝ) : Fin 3 → Option ℝ :=
  match velSrc x with
  | .gps => fun i => some (x.gpsVel i)
  | .flow =>
    let r := max (x.terrain - s.pos 2) x.clearance / x.cosTilt
    if 3 / 10 < r - x.clearance then
      let v := x.R *ᵥ ![-(r * (x.flow 1 / x.flowDt)), r * (x.flow 0 / x.flowDt), 0]
      ![some (v 0), some (v 1), none]
    else ![some 0, some 0, none]
  | .vision => fun i => some (x.visVel i)
  | .none => ![some 0, some 0, none]

/-- the variance given to a reset component -/
def velVar (x : RIn) (s : State ℝ) : Fin 3 → ℝ :=
  match velSrc x with
  | .gps => fun _ => x.gpsSacc ^ 2
  | .flow => fun _ => (max (x.terrain - s.pos 2) x.clearance / x.cosTilt) ^ 2 * x.flowVar
  | .vision => x.visVelVar
  | .none => fun _ => 25

/-- the horizontal position of the source -/
def posTarget (x : RIn) : Fin 2 → ℝ :=
  match posSrc x with
  | .gps => x.gpsPos
  | .vision => fun i => if x.rotateEv = true then (x.REv *ᵥ x.evPosMeas) i.castSucc else x.evPosMeas i.castSucc
  | .origin => 0
  | .lastKnown => x.lastKnown

/-- its variance: GPS accuracy, vision variances, zero when flow is the source of aiding, else the no-aiding noise -/
def posVar (x : RIn) : Fin 2 → ℝ :=
  match posSrc x with
  | .gps => fun _ => x.gpsHacc ^ 2
  | .vision => fun i => x.evPosVar i.castSucc
  | .origin => fun _ => 0
  | .lastKnown => fun _ => if x.optFlow = true then 0 else x.noaid ^ 2

end

end Spec

theorem uncorrSet_in {f w : ℕ} {v : Fin N → ℝ} {P : Mat ℝ} {i : Fin N} (h : inBlk f w i) (j : Fin N) :
    uncorrSet f w v P i j = (if i = j then v i else 0) ∧ uncorrSet f w v P j i = (if i = j then v i else 0) := by
  unfold uncorrSet
  rw [if_pos (Or.inl h), if_pos (Or.inr h)]
  refine ⟨rfl, ?_⟩
  by_cases hij : i = j
  · subst hij; rfl
  · rw [if_neg hij, if_neg (fun h => hij h.symm)]

theorem uncorrSet_out {f w : ℕ} {v : Fin N → ℝ} {P : Mat ℝ} {i j : Fin N} (hi : ¬ inBlk f w i) (hj : ¬ inBlk f w j) :
    uncorrSet f w v P i j = P i j := by
  unfold uncorrSet; rw [if_neg (not_or.2 ⟨hi, hj⟩)]

/-- what a reset of a component means: the state has the target value and its variance is the given one, without correlation -/
def Spec.Reset (f' : Flt) (value : ℝ) (target var : ℝ) (i : Fin N) : Prop :=
  value = target ∧ f'.P i i = var ∧ ∀ j, j ≠ i → f'.P i j = 0 ∧ f'.P j i = 0

theorem reset_of_uncorr {f : Flt} {e : Est ℝ} {b w : ℕ} {v : Fin N → ℝ} {i : Fin N} (h : inBlk b w i) {value : ℝ} :
    Spec.Reset { f with est := e, P := uncorrSet b w v f.P } value value (v i) i := by
  refine ⟨rfl, ?_, fun j hj => ?_⟩
  · show uncorrSet b w v f.P i i = _
    rw [(uncorrSet_in h i).1, if_pos rfl]
  · show uncorrSet b w v f.P i j = _ ∧ uncorrSet b w v f.P j i = _
    rw [(uncorrSet_in h j).1, (uncorrSet_in h j).2, if_neg (Ne.symm hj)]; exact ⟨rfl, rfl⟩

/-- index of a velocity component in the covariance -/
def velIdx (i : Fin 3) : Fin N := ⟨4 + i.val, by have := i.isLt; show 4 + i.val < 24; omega⟩
/-- index of a horizontal position component in the covariance -/
def posIdx (i : Fin 2) : Fin N := ⟨7 + i.val, by have := i.isLt; show 7 + i.val < 24; omega⟩

/-- **C122 (velocity reset).** Every velocity component for which the preferred source has a value is set to it, with the source's variance and
no correlation; a component without value keeps value, variance and correlations among the kept states; nothing else of state and
covariance changes; all outputs move by the same amount as the state. -/
theorem velocity_reset (x : RIn) (f : Flt) :
    let f' := resetVelocity x f
    (∀ i, match Spec.velTarget x f.est.state i with
      | some t => Spec.Reset f' (f'.est.state.vel i) t (Spec.velVar x f.est.state i) (velIdx i)
      | none => f'.est.state.vel i = f.est.state.vel i) ∧
    (∀ i j : Fin N, (∀ k, Spec.velTarget x f.est.state k ≠ none → velIdx k ≠ i ∧ velIdx k ≠ j) → f'.P i j = f.P i j) ∧
    (∃ dv, Ekf.Spec.ShiftedBy f.est f'.est dv 0) ∧ f'.hposPrev = f.hposPrev := by
  have blk2 : ∀ i : Fin N, inBlk 4 2 i ↔ velIdx 0 = i ∨ velIdx 1 = i := by
    intro i
    simp only [inBlk, velIdx, Fin.ext_iff, Fin.val_zero, Fin.val_one]
    omega
  have blk3 : ∀ i : Fin N, inBlk 4 3 i ↔ velIdx 0 = i ∨ velIdx 1 = i ∨ velIdx 2 = i := by
    intro i
    simp only [inBlk, velIdx, Fin.ext_iff, Fin.val_zero, Fin.val_one, Fin.val_two]
    omega
  have shift3 : ∀ v, ∃ dv, Ekf.Spec.ShiftedBy f.est (f.est.resetVelocityTo v) dv 0 := by
    intro v
    have h1 := (resetHorizontalVelocityTo_spec f.est ![v 0, v 1]).2.1
    have h2 := (resetVerticalVelocityTo_spec (f.est.resetHorizontalVelocityTo ![v 0, v 1]) (v 2)).2.1
    have h3 := h1.trans h2
    rw [add_zero] at h3
    exact ⟨_, h3⟩
  have shift2 : ∀ v, ∃ dv, Ekf.Spec.ShiftedBy f.est (f.est.resetHorizontalVelocityTo v) dv 0 := fun v =>
    ⟨_, (resetHorizontalVelocityTo_spec f.est v).2.1⟩
  -- all three components
  have all3 : ∀ (v w : V3 ℝ) (u : Fin N → ℝ), (∀ i, u (velIdx i) = w i) →
      let f' : Flt := { f with est := f.est.resetVelocityTo v, P := uncorrSet 4 3 u f.P }
      (∀ i, Spec.Reset f' (f'.est.state.vel i) (v i) (w i) (velIdx i)) ∧
      (∀ i j : Fin N, (∀ k : Fin 3, velIdx k ≠ i ∧ velIdx k ≠ j) → f'.P i j = f.P i j) := by
    intro v w u hu f'
    refine ⟨fun i => ?_, fun i j h => ?_⟩
    · have hv : f'.est.state.vel i = v i := by fin_cases i <;> rfl
      rw [hv, ← hu i]
      exact reset_of_uncorr ((blk3 _).2 (by fin_cases i <;> simp))
    · apply uncorrSet_out
      · rw [blk3]; rintro (h' | h' | h')
        exacts [(h 0).1 h', (h 1).1 h', (h 2).1 h']
      · rw [blk3]; rintro (h' | h' | h')
        exacts [(h 0).2 h', (h 1).2 h', (h 2).2 h']
  -- horizontal components
  have hor : ∀ (v : Fin 2 → ℝ) (w : ℝ),
      let f' : Flt := { f with est := f.est.resetHorizontalVelocityTo v, P := uncorrSet 4 2 (fun _ => w) f.P }
      (Spec.Reset f' (f'.est.state.vel 0) (v 0) w (velIdx 0) ∧ Spec.Reset f' (f'.est.state.vel 1) (v 1) w (velIdx 1) ∧
        f'.est.state.vel 2 = f.est.state.vel 2) ∧
      (∀ i j : Fin N, (velIdx 0 ≠ i ∧ velIdx 0 ≠ j) → (velIdx 1 ≠ i ∧ velIdx 1 ≠ j) → f'.P i j = f.P i j) := by
    intro v w f'
    refine ⟨⟨?_, ?_, rfl⟩, fun i j h0 h1 => ?_⟩
    · have hv : f'.est.state.vel 0 = v 0 := rfl
      rw [hv]; exact reset_of_uncorr (v := fun _ => w) ((blk2 _).2 (Or.inl rfl))
    · have hv : f'.est.state.vel 1 = v 1 := rfl
      rw [hv]; exact reset_of_uncorr (v := fun _ => w) ((blk2 _).2 (Or.inr rfl))
    · apply uncorrSet_out
      · rw [blk2]; rintro (h' | h')
        exacts [h0.1 h', h1.1 h']
      · rw [blk2]; rintro (h' | h')
        exacts [h0.2 h', h1.2 h']
  -- assembling for a horizontal target
  have fin : ∀ (a b w : ℝ) (tgt : Fin 3 → Option ℝ) (var : Fin 3 → ℝ) (f' : Flt), tgt = ![some a, some b, none] → var = (fun _ => w) →
      f' = { f with est := f.est.resetHorizontalVelocityTo ![a, b], P := uncorrSet 4 2 (fun _ => w) f.P } →
      (∀ i, match tgt i with
        | some t => Spec.Reset f' (f'.est.state.vel i) t (var i) (velIdx i)
        | none => f'.est.state.vel i = f.est.state.vel i) ∧
      (∀ i j : Fin N, (∀ k, tgt k ≠ none → velIdx k ≠ i ∧ velIdx k ≠ j) → f'.P i j = f.P i j) ∧
      (∃ dv, Ekf.Spec.ShiftedBy f.est f'.est dv 0) ∧ f'.hposPrev = f.hposPrev := by
    intro a b w tgt var f' ht hv hf
    obtain ⟨⟨r0, r1, r2⟩, r3⟩ := hor ![a, b] w
    subst ht hv hf
    refine ⟨?_, ?_, shift2 _, rfl⟩
    · intro i
      fin_cases i
      · exact r0
      · exact r1
      · exact r2
    · intro i j h
      exact r3 i j (h 0 (by simp)) (h 1 (by simp))
  have fin3 : ∀ (v w : V3 ℝ) (u : Fin N → ℝ) (tgt : Fin 3 → Option ℝ) (f' : Flt), (∀ i, u (velIdx i) = w i) → tgt = (fun i => some (v i)) →
      f' = { f with est := f.est.resetVelocityTo v, P := uncorrSet 4 3 u f.P } →
      (∀ i, match tgt i with
        | some t => Spec.Reset f' (f'.est.state.vel i) t (w i) (velIdx i)
        | none => f'.est.state.vel i = f.est.state.vel i) ∧
      (∀ i j : Fin N, (∀ k, tgt k ≠ none → velIdx k ≠ i ∧ velIdx k ≠ j) → f'.P i j = f.P i j) ∧
      (∃ dv, Ekf.Spec.ShiftedBy f.est f'.est dv 0) ∧ f'.hposPrev = f.hposPrev := by
    intro v w u tgt f' hu ht hf
    obtain ⟨r0, r1⟩ := all3 v w u hu
    subst ht hf
    exact ⟨r0, fun i j h => r1 i j fun k => h k (by simp), shift3 _, rfl⟩
  intro f'
  by_cases h1 : x.gps = true ∧ x.gpsHealthy = true
  · have hs : Spec.velSrc x = .gps := if_pos h1
    have hf : f' = velToGps x f := by
      show resetVelocity x f = _
      unfold resetVelocity; rw [h1.1, h1.2]; rfl
    have ht : Spec.velTarget x f.est.state = fun i => some (x.gpsVel i) := by unfold Spec.velTarget; rw [hs]
    have hw : Spec.velVar x f.est.state = fun _ => x.gpsSacc ^ 2 := by unfold Spec.velVar; rw [hs]
    rw [hw]
    exact fin3 x.gpsVel (fun _ => x.gpsSacc ^ 2) (fun _ => sq x.gpsSacc) _ f' (fun i => by simp [sq, pow_two]) ht hf
  · have hc : (x.gps && x.gpsHealthy) = false := by
      rw [← Bool.not_eq_true, Bool.and_eq_true]; exact h1
    by_cases h2 : x.optFlow = true
    · have hs : Spec.velSrc x = .flow := by unfold Spec.velSrc; rw [if_neg h1, if_pos h2]
      have hf : f' = velToFlow x f := by
        show resetVelocity x f = _
        unfold resetVelocity; rw [hc, h2]; rfl
      have hw : Spec.velVar x f.est.state = fun _ => (max (x.terrain - f.est.state.pos 2) x.clearance / x.cosTilt) ^ 2 * x.flowVar := by
        unfold Spec.velVar; rw [hs]
      unfold velToFlow at hf
      by_cases hr : 3 / 10 < max (x.terrain - f.est.state.pos 2) x.clearance / x.cosTilt - x.clearance
      · have hr' : flowResetRange x f.est.state - x.clearance > 3 / 10 := hr
        simp only [if_pos hr'] at hf
        have ht : Spec.velTarget x f.est.state =
            ![some ((x.R *ᵥ ![-(flowResetRange x f.est.state * (x.flow 1 / x.flowDt)), flowResetRange x f.est.state * (x.flow 0 / x.flowDt), 0]) 0),
              some ((x.R *ᵥ ![-(flowResetRange x f.est.state * (x.flow 1 / x.flowDt)), flowResetRange x f.est.state * (x.flow 0 / x.flowDt), 0]) 1), none] := by
          unfold Spec.velTarget; rw [hs]; simp only [if_pos hr]; rfl
        have e : (![-flowResetRange x f.est.state * x.flow 1 / x.flowDt, flowResetRange x f.est.state * x.flow 0 / x.flowDt, 0] : V3 ℝ) =
            ![-(flowResetRange x f.est.state * (x.flow 1 / x.flowDt)), flowResetRange x f.est.state * (x.flow 0 / x.flowDt), 0] := by
          congr 1
          · ring
          · congr 1; ring
        rw [e] at hf
        exact fin _ _ _ _ _ f' ht hw (by rw [hf]; simp only [sq, pow_two, flowResetRange])
      · have hr' : ¬ flowResetRange x f.est.state - x.clearance > 3 / 10 := hr
        simp only [if_neg hr'] at hf
        have ht : Spec.velTarget x f.est.state = ![some 0, some 0, none] := by
          unfold Spec.velTarget; rw [hs]; simp only [if_neg hr]
        exact fin 0 0 _ _ _ f' ht hw (by rw [hf]; simp only [sq, pow_two, flowResetRange])
    · have h2' : x.optFlow = false := by simpa using h2
      by_cases h3 : x.evVel = true
      · have hs : Spec.velSrc x = .vision := by unfold Spec.velSrc; rw [if_neg h1, if_neg h2, if_pos h3]
        have hf : f' = velToVision x f := by
          show resetVelocity x f = _
          unfold resetVelocity; rw [hc, h2', h3]; rfl
        have ht : Spec.velTarget x f.est.state = fun i => some (x.visVel i) := by unfold Spec.velTarget; rw [hs]
        have hw : Spec.velVar x f.est.state = x.visVelVar := by unfold Spec.velVar; rw [hs]
        rw [hw]
        exact fin3 x.visVel x.visVelVar _ _ f' (fun i => by fin_cases i <;> rfl) ht hf
      · have h3' : x.evVel = false := by simpa using h3
        have hs : Spec.velSrc x = .none := by unfold Spec.velSrc; rw [if_neg h1, if_neg h2, if_neg h3]
        have hf : f' = velToZero f := by
          show resetVelocity x f = _
          unfold resetVelocity; rw [hc, h2', h3']; rfl
        have ht : Spec.velTarget x f.est.state = ![some 0, some 0, none] := by unfold Spec.velTarget; rw [hs]
        have hw : Spec.velVar x f.est.state = fun _ => 25 := by unfold Spec.velVar; rw [hs]
        exact fin 0 0 25 _ _ f' ht hw hf

/-- **C123 (position reset).** Both horizontal position components are set to the preferred source with its variance and without correlation;
nothing else of state and covariance changes, all outputs move by the same amount, and the next odometry sample is told that no previous
position is available. -/
theorem position_reset (x : RIn) (f : Flt) :
    let f' := resetHorizontalPosition x f
    (∀ i : Fin 2, Spec.Reset f' (f'.est.state.pos i.castSucc) (Spec.posTarget x i) (Spec.posVar x i) (posIdx i)) ∧
    (∀ i j : Fin N, (∀ k, posIdx k ≠ i ∧ posIdx k ≠ j) → f'.P i j = f.P i j) ∧
    (∃ dp, Ekf.Spec.ShiftedBy f.est f'.est 0 dp ∧ dp 2 = 0) ∧ f'.hposPrev = false := by
  have blk : ∀ i : Fin N, inBlk 7 2 i ↔ posIdx 0 = i ∨ posIdx 1 = i := by
    intro i
    simp only [inBlk, posIdx, Fin.ext_iff, Fin.val_zero, Fin.val_one]
    omega
  have key : ∀ (t : Fin 2 → ℝ) (w : Fin 2 → ℝ) (u : Fin N → ℝ) (tgt var : Fin 2 → ℝ) (f' : Flt), (∀ i, u (posIdx i) = w i) → tgt = t → var = w →
      f' = { f with hposPrev := false, est := f.est.resetHorizontalPositionTo t, P := uncorrSet 7 2 u f.P } →
      (∀ i : Fin 2, Spec.Reset f' (f'.est.state.pos i.castSucc) (tgt i) (var i) (posIdx i)) ∧
      (∀ i j : Fin N, (∀ k, posIdx k ≠ i ∧ posIdx k ≠ j) → f'.P i j = f.P i j) ∧
      (∃ dp, Ekf.Spec.ShiftedBy f.est f'.est 0 dp ∧ dp 2 = 0) ∧ f'.hposPrev = false := by
    intro t w u tgt var f' hu ht hv hf
    subst ht hv hf
    refine ⟨fun i => ?_, fun i j h => ?_, ?_, rfl⟩
    · have hp : (f.est.resetHorizontalPositionTo tgt).state.pos i.castSucc = tgt i := by fin_cases i <;> rfl
      simp only
      rw [hp, ← hu i]
      exact reset_of_uncorr (f := { f with hposPrev := false }) ((blk _).2 (by fin_cases i <;> simp))
    · apply uncorrSet_out
      · rw [blk]; rintro (h' | h')
        exacts [(h 0).1 h', (h 1).1 h']
      · rw [blk]; rintro (h' | h')
        exacts [(h 0).2 h', (h 1).2 h']
    · exact ⟨_, (resetHorizontalPositionTo_spec f.est tgt).2.1, rfl⟩
  intro f'
  by_cases h1 : x.gps = true
  · have hs : Spec.posSrc x = .gps := if_pos h1
    refine key x.gpsPos (fun _ => x.gpsHacc ^ 2) (fun _ => sq x.gpsHacc) _ _ f' (fun i => by simp [sq, pow_two]) ?_ ?_ ?_
    · unfold Spec.posTarget; rw [hs]
    · unfold Spec.posVar; rw [hs]
    · show resetHorizontalPosition x f = _
      unfold resetHorizontalPosition; rw [h1]; rfl
  · have h1' : x.gps = false := by simpa using h1
    by_cases h2 : x.evPos = true
    · have hs : Spec.posSrc x = .vision := by unfold Spec.posSrc; rw [if_neg h1, if_pos h2]
      refine key ![(if x.rotateEv = true then x.REv *ᵥ x.evPosMeas else x.evPosMeas) 0, (if x.rotateEv = true then x.REv *ᵥ x.evPosMeas else x.evPosMeas) 1]
        (fun i => x.evPosVar i.castSucc) (blkVar 7 fun k => if k = 0 then x.evPosVar 0 else x.evPosVar 1) _ _ f' (fun i => ?_) ?_ ?_ ?_
      · fin_cases i <;> rfl
      · unfold Spec.posTarget; rw [hs]
        funext i
        cases x.rotateEv <;> fin_cases i <;> rfl
      · unfold Spec.posVar; rw [hs]
      · show resetHorizontalPosition x f = _
        unfold resetHorizontalPosition; rw [h1', h2]; rfl
    · have h2' : x.evPos = false := by simpa using h2
      by_cases h3 : x.optFlow = true
      · by_cases h4 : x.inAir = false
        · have hs : Spec.posSrc x = .origin := by unfold Spec.posSrc; rw [if_neg h1, if_neg h2, if_pos ⟨h3, h4⟩]
          refine key ![0, 0] (fun _ => 0) (fun _ => 0) _ _ f' (fun i => rfl) ?_ ?_ ?_
          · unfold Spec.posTarget; rw [hs]; funext i; fin_cases i <;> rfl
          · unfold Spec.posVar; rw [hs]
          · show resetHorizontalPosition x f = _
            unfold resetHorizontalPosition; rw [h1', h2', h3, h4]; rfl
        · have h4' : x.inAir = true := by simpa using h4
          have hs : Spec.posSrc x = .lastKnown := by unfold Spec.posSrc; rw [if_neg h1, if_neg h2, if_neg (fun h => h4 h.2)]
          refine key x.lastKnown (fun _ => 0) (fun _ => 0) _ _ f' (fun i => rfl) ?_ ?_ ?_
          · unfold Spec.posTarget; rw [hs]
          · unfold Spec.posVar; rw [hs]; simp only [h3, if_true]
          · show resetHorizontalPosition x f = _
            unfold resetHorizontalPosition; rw [h1', h2', h3, h4']; rfl
      · have h3' : x.optFlow = false := by simpa using h3
        have hs : Spec.posSrc x = .lastKnown := by unfold Spec.posSrc; rw [if_neg h1, if_neg h2, if_neg (fun h => h3 h.1)]
        refine key x.lastKnown (fun _ => x.noaid ^ 2) (fun _ => sq x.noaid) _ _ f' (fun i => by simp [sq, pow_two]) ?_ ?_ ?_
        · unfold Spec.posTarget; rw [hs]
        · unfold Spec.posVar; rw [hs]; simp only [h3', Bool.false_eq_true, if_false]
        · show resetHorizontalPosition x f = _
          unfold resetHorizontalPosition; rw [h1', h2', h3']; rfl

/-- **C122, C123 (validity).** Both resets keep a valid (symmetric positive semidefinite) covariance valid, for non-negative flow noise and
vision variances. -/
theorem reset_valid (x : RIn) (f : Flt) (hP : Cov.Spec.PSD f.P) (h1 : 0 ≤ x.flowVar) (h2 : ∀ i, 0 ≤ x.visVelVar i) (h3 : ∀ i, 0 ≤ x.evPosVar i) :
    Cov.Spec.PSD (resetVelocity x f).P ∧ Cov.Spec.PSD (resetHorizontalPosition x f).P := by
  constructor
  · unfold resetVelocity
    split_ifs
    · exact psd_uncorrSet hP fun _ _ => mul_self_nonneg _
    · exact psd_uncorrSet hP fun _ _ => by unfold sq; exact mul_nonneg (mul_self_nonneg _) h1
    · refine psd_uncorrSet hP fun i _ => ?_
      unfold blkVar; simp only; split_ifs <;> exact h2 _
    · exact psd_uncorrSet hP fun _ _ => by norm_num
  · unfold resetHorizontalPosition
    simp only
    split_ifs
    · exact psd_uncorrSet hP fun _ _ => mul_self_nonneg _
    · refine psd_uncorrSet hP fun i _ => ?_
      unfold blkVar; simp only; split_ifs <;> exact h3 _
    · exact psd_uncorrSet hP fun _ _ => le_rfl
    · exact psd_uncorrSet hP fun _ _ => le_rfl
    · exact psd_uncorrSet hP fun _ _ => mul_self_nonneg _

/-- **C122 (finding).** A GPS timeout reset (EKF/control.cpp:655-671) with GPS as only source and a failed GPS check within the health time stops
the vehicle: the horizontal velocity becomes zero, in flight too, while the position is still set to that GPS fix. -/
theorem unhealthy_gps_stops (x : RIn) (f : Flt) (hg : x.gps = true) (hb : x.gpsHealthy = false) (ho : x.optFlow = false) (he : x.evVel = false) :
    let f' := resetHorizontalPosition x (resetVelocity x f)
    f'.est.state.vel 0 = 0 ∧ f'.est.state.vel 1 = 0 ∧ f'.est.state.vel 2 = f.est.state.vel 2 ∧
    f'.est.state.pos 0 = x.gpsPos 0 ∧ f'.est.state.pos 1 = x.gpsPos 1 := by
  unfold resetHorizontalPosition resetVelocity
  rw [hg, hb, ho, he]
  exact ⟨rfl, rfl, rfl, rfl, rfl⟩

theorem flow_reset_vel (x : RIn) (f : Flt) (hg : x.gps = false) (ho : x.optFlow = true) (hR : x.R = 1)
    (hr : flowResetRange x f.est.state = 2) (hc : x.clearance = 1 / 10) :
    (resetVelocity x f).est.state.vel 1 = 2 * (x.flow 0 / x.flowDt) := by
  have h1 := (velocity_reset x f).1 1
  have hs : Spec.velSrc x = .flow := by
    unfold Spec.velSrc
    rw [if_neg (fun h => by rw [hg] at h; exact Bool.noConfusion h.1), if_pos ho]
  have hr' : max (x.terrain - f.est.state.pos 2) x.clearance / x.cosTilt = 2 := hr
  have ht : Spec.velTarget x f.est.state 1 = some (2 * (x.flow 0 / x.flowDt)) := by
    unfold Spec.velTarget
    rw [hs]
    simp only [hr']
    rw [if_pos (by rw [hc]; norm_num), hR, Matrix.one_mulVec]
    rfl
  rw [ht] at h1
  exact h1.1

/-- **C122 (finding).** A velocity reset while optical flow is used takes the interval of the last popped sample, also if that sample was
rejected; for an interval approaching zero the velocity it sets is unbounded. -/
theorem flow_reset_unbounded (x : RIn) (f : Flt) (hg : x.gps = false) (ho : x.optFlow = true) (hR : x.R = 1) (hf : x.flow 0 = 1)
    (hr : flowResetRange x f.est.state = 2) (hc : x.clearance = 1 / 10) (B : ℝ) (hB : 0 < B) :
    ∃ dt, 0 < dt ∧ B ≤ |(resetVelocity { x with flowDt := dt } f).est.state.vel 1| := by
  refine ⟨1 / B, by positivity, ?_⟩
  rw [flow_reset_vel { x with flowDt := 1 / B } f hg ho hR hr hc]
  show B ≤ |2 * (x.flow 0 / (1 / B))|
  rw [hf, abs_of_pos (by positivity), one_div_one_div]
  linarith

/-- a concrete estimator with one stored output, moving at (1, 2, 3) m/s, and a covariance with a correlation -/
noncomputable def exFlt : Flt where
  est := {
    state := ⟨⟨1, 0, 0, 0⟩, ![1, 2, 3], ![4, 5, -6], 0, 0, 0, 0, 0⟩
    outBuf := ⟨some [⟨10, ⟨⟨1, 0, 0, 0⟩, ![1, 1, 1], ![2, 2, 2]⟩⟩], 0, 0, 1, false⟩
    vertBuf := ⟨some [⟨10, ⟨1, 2, 0⟩⟩], 0, 0, 1, false⟩
    outNew := ⟨⟨1, 0, 0, 0⟩, ![1, 1, 1], ![2, 2, 2]⟩
    vertNew := ⟨1, 2, 0⟩
    reset := ⟨0, 0, 0, 0, ⟨1, 0, 0, 0⟩, 0, 0, 0, 0, 255⟩ }
  P := fun i j => (1 : ℝ) * (1 * 1) + if i = j then 1 else 0
  hposPrev := true

/-- inputs of a concrete reset in flight, 2 m above the terrain -/
noncomputable def exRIn : RIn :=
  { gps := true, optFlow := false, evVel := false, evPos := false, inAir := true, gpsHealthy := false, gpsVel := ![3, 4, 0], gpsSacc := 1 / 2,
    gpsPos := ![7, 8], gpsHacc := 3, terrain := -4, clearance := 1 / 10, cosTilt := 1, flow := ![1, 0], flowDt := 1 / 10, flowVar := 1 / 100, R := 1,
    visVel := 0, visVelVar := ![1, 2, 3], evPosMeas := ![9, 9, 9], evPosVar := ![1, 2, 3], rotateEv := false, REv := 1, lastKnown := ![5, 5], noaid := 10 }

theorem exFlt_psd : Cov.Spec.PSD exFlt.P :=
  psd_add (psd_outer (fun _ : Fin N => (1 : ℝ)) (by norm_num)) (psd_diag fun _ => by norm_num)

/-- Non-vacuity of `reset_valid` and `unhealthy_gps_stops`: the vehicle moves at 2 m/s east before. -/
example : Cov.Spec.PSD exFlt.P ∧ 0 ≤ exRIn.flowVar ∧ (∀ i, 0 ≤ exRIn.visVelVar i) ∧ (∀ i, 0 ≤ exRIn.evPosVar i) ∧ exRIn.gps = true ∧
    exRIn.gpsHealthy = false ∧ exRIn.optFlow = false ∧ exRIn.evVel = false ∧ exRIn.inAir = true ∧ exFlt.est.state.vel 1 = 2 ∧ exFlt.P 4 5 = 1 := by
  refine ⟨exFlt_psd, ?_, ?_, ?_, rfl, rfl, rfl, rfl, rfl, rfl, ?_⟩
  · show (0 : ℝ) ≤ 1 / 100; norm_num
  · intro i; fin_cases i <;> simp [exRIn]
  · intro i; fin_cases i <;> simp [exRIn]
  · show (1 : ℝ) * (1 * 1) + (if (4 : Fin N) = 5 then 1 else 0) = 1
    rw [if_neg (by decide)]; norm_num

/-- Non-vacuity of `velocity_reset` (healthy GPS and flow), `position_reset` and `flow_reset_unbounded`. -/
example : Spec.velTarget { exRIn with gpsHealthy := true } exFlt.est.state 1 = some 4 ∧ Spec.velSrc { exRIn with gps := false, optFlow := true } = .flow ∧
    Spec.posSrc exRIn = .gps ∧ Spec.posSrc { exRIn with gps := false, optFlow := true } = .lastKnown ∧
    flowResetRange { exRIn with gps := false, optFlow := true } exFlt.est.state = 2 := by
  refine ⟨?_, ?_, ?_, ?_, ?_⟩
  · simp [Spec.velTarget, Spec.velSrc, exRIn]
  · simp [Spec.velSrc, exRIn]
  · simp [Spec.posSrc, exRIn]
  · simp [Spec.posSrc, exRIn]
  · simp [flowResetRange, exRIn, exFlt]; norm_num

end Ecl.Meas
