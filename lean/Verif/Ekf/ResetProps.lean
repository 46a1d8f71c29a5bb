import Verif.Ekf.Reset
import Verif.RingBuffer.PopLemmas

/-!
# Properties C21, C22, C66, C67 — resets and alignment of the output predictor
-/

namespace Ecl.Ekf

open Ecl.RingBuffer

variable {K : Type*} [Field K]

theorem v3_ext {a b : V3 K} (h0 : a 0 = b 0) (h1 : a 1 = b 1) (h2 : a 2 = b 2) : a = b := by
  funext i; fin_cases i <;> assumption

theorem addXY_sub (v : V3 K) (a : Fin 2 → K) : addXY v a - v = ![a 0, a 1, 0] := by
  apply v3_ext <;> simp [addXY]

theorem addZ_sub (v : V3 K) (a : K) : addZ v a - v = ![0, 0, a] := by
  apply v3_ext <;> simp [addZ]

theorem setXY_sub (v : V3 K) (a : Fin 2 → K) : setXY v a - v = ![a 0 - v 0, a 1 - v 1, 0] := by
  apply v3_ext <;> simp [setXY]

theorem setZ_sub (v : V3 K) (a : K) : setZ v a - v = ![0, 0, a - v 2] := by
  apply v3_ext <;> simp [setZ]

/-- Specification: what a consistent shift of the estimate means.  The EKF state, the current output and every
stored output change by the same velocity increment `dv` and position increment `dp`; attitude, biases, fields, wind
and time stamps stay. -/
structure Spec.ShiftedBy (e e' : Est K) (dv dp : V3 K) : Prop where
  vel : e'.state.vel = e.state.vel + dv
  pos : e'.state.pos = e.state.pos + dp
  rest : e'.state = { e.state with vel := e'.state.vel, pos := e'.state.pos }
  outVel : e'.outNew.vel = e.outNew.vel + dv
  outPos : e'.outNew.pos = e.outNew.pos + dp
  outQuat : e'.outNew.quat = e.outNew.quat
  history : e'.outBuf.live = e.outBuf.live.map fun s => ⟨s.time_us, ⟨s.data.quat, s.data.vel + dv, s.data.pos + dp⟩⟩

theorem add_eq_of_sub {a b d : V3 K} (h : a - b = d) : a = b + d := by rw [← h]; abel

/-- **C21 (horizontal velocity).** -/
theorem resetHorizontalVelocityTo_spec (e : Est K) (t : Fin 2 → K) :
    let e' := e.resetHorizontalVelocityTo t
    (e'.state.vel 0 = t 0 ∧ e'.state.vel 1 = t 1 ∧ e'.state.vel 2 = e.state.vel 2) ∧
    Spec.ShiftedBy e e' ![e'.reset.velNE 0, e'.reset.velNE 1, 0] 0 ∧
    e'.vertBuf = e.vertBuf ∧ e'.vertNew = e.vertNew ∧
    e'.reset = { e.reset with velNE := e'.reset.velNE, velNECounter := e.reset.velNECounter + 1 } := by
  refine ⟨⟨rfl, rfl, rfl⟩, ⟨?_, by simp [Est.resetHorizontalVelocityTo], rfl, ?_, by
    simp [Est.resetHorizontalVelocityTo], rfl, ?_⟩, rfl, rfl, rfl⟩
  · exact add_eq_of_sub (setXY_sub _ _)
  · exact add_eq_of_sub (addXY_sub _ _)
  · show (e.outBuf.mapAll _).live = _
    rw [live_mapAll]
    apply List.map_congr_left
    intro s _
    simp only [add_zero]
    congr 2
    exact add_eq_of_sub (addXY_sub _ _)

/-- **C21 (vertical velocity).** The alternative vertical output (`vert_vel`) is shifted as well. -/
theorem resetVerticalVelocityTo_spec (e : Est K) (t : K) :
    let e' := e.resetVerticalVelocityTo t
    (e'.state.vel 0 = e.state.vel 0 ∧ e'.state.vel 1 = e.state.vel 1 ∧ e'.state.vel 2 = t) ∧
    Spec.ShiftedBy e e' ![0, 0, e'.reset.velD] 0 ∧
    e'.vertBuf.live = e.vertBuf.live.map (fun s => ⟨s.time_us, { s.data with vertVel := s.data.vertVel + e'.reset.velD }⟩) ∧
    e'.vertNew = { e.vertNew with vertVel := e.vertNew.vertVel + e'.reset.velD } ∧
    e'.reset = { e.reset with velD := e'.reset.velD, velDCounter := e.reset.velDCounter + 1 } := by
  refine ⟨⟨rfl, rfl, rfl⟩, ⟨?_, by simp [Est.resetVerticalVelocityTo], rfl, ?_, by
    simp [Est.resetVerticalVelocityTo], rfl, ?_⟩, ?_, rfl, rfl⟩
  · exact add_eq_of_sub (setZ_sub _ _)
  · exact add_eq_of_sub (addZ_sub _ _)
  · show (e.outBuf.mapAll _).live = _
    rw [live_mapAll]
    apply List.map_congr_left
    intro s _
    simp only [add_zero]
    congr 2
    exact add_eq_of_sub (addZ_sub _ _)
  · show (e.vertBuf.mapAll _).live = _
    rw [live_mapAll]; rfl

/-- **C21 (horizontal position).** -/
theorem resetHorizontalPositionTo_spec (e : Est K) (t : Fin 2 → K) :
    let e' := e.resetHorizontalPositionTo t
    (e'.state.pos 0 = t 0 ∧ e'.state.pos 1 = t 1 ∧ e'.state.pos 2 = e.state.pos 2) ∧
    Spec.ShiftedBy e e' 0 ![e'.reset.posNE 0, e'.reset.posNE 1, 0] ∧
    e'.vertBuf = e.vertBuf ∧ e'.vertNew = e.vertNew ∧
    e'.reset = { e.reset with posNE := e'.reset.posNE, posNECounter := e.reset.posNECounter + 1 } := by
  refine ⟨⟨rfl, rfl, rfl⟩, ⟨by simp [Est.resetHorizontalPositionTo], ?_, rfl, by
    simp [Est.resetHorizontalPositionTo], ?_, rfl, ?_⟩, rfl, rfl, rfl⟩
  · exact add_eq_of_sub (setXY_sub _ _)
  · exact add_eq_of_sub (addXY_sub _ _)
  · show (e.outBuf.mapAll _).live = _
    rw [live_mapAll]
    apply List.map_congr_left
    intro s _
    simp only [add_zero]
    congr 2
    exact add_eq_of_sub (addXY_sub _ _)

/-- **C21 (vertical position).** The stored alternative vertical positions are shifted too; the current one is set to
the new state. -/
theorem resetVerticalPositionTo_spec (e : Est K) (t : K) :
    let e' := e.resetVerticalPositionTo t
    (e'.state.pos 0 = e.state.pos 0 ∧ e'.state.pos 1 = e.state.pos 1 ∧ e'.state.pos 2 = t) ∧
    Spec.ShiftedBy e e' 0 ![0, 0, e'.reset.posD] ∧
    e'.vertBuf.live = e.vertBuf.live.map
      (fun s => ⟨s.time_us, { s.data with vertVelInteg := s.data.vertVelInteg + e'.reset.posD }⟩) ∧
    e'.vertNew = { e.vertNew with vertVelInteg := t } ∧
    e'.reset = { e.reset with posD := e'.reset.posD, posDCounter := e.reset.posDCounter + 1 } := by
  refine ⟨⟨rfl, rfl, rfl⟩, ⟨by simp [Est.resetVerticalPositionTo], ?_, rfl, by
    simp [Est.resetVerticalPositionTo], ?_, rfl, ?_⟩, ?_, rfl, rfl⟩
  · exact add_eq_of_sub (setZ_sub _ _)
  · exact add_eq_of_sub (addZ_sub _ _)
  · show (e.outBuf.mapAll _).live = _
    rw [live_mapAll]
    apply List.map_congr_left
    intro s _
    simp only [add_zero]
    congr 2
    exact add_eq_of_sub (addZ_sub _ _)
  · show (e.vertBuf.mapAll _).live = _
    rw [live_mapAll]; rfl

/-- **C21 (finding).** The current alternative vertical position is the one quantity that is not shifted by the
reported amount: it jumps by the reported amount iff it agreed with the EKF's down position before. -/
theorem vertNew_shift_iff (e : Est K) (t : K) :
    let e' := e.resetVerticalPositionTo t
    e'.vertNew.vertVelInteg - e.vertNew.vertVelInteg = e'.reset.posD ↔ e.vertNew.vertVelInteg = e.state.pos 2 := by
  simp only [Est.resetVerticalPositionTo]
  constructor
  · intro h; linear_combination -h
  · intro h; rw [h]

/-- reset requests -/
inductive ResetOp (K : Type*)
  | velH (t : Fin 2 → K)
  | velV (t : K)
  | vel (t : V3 K)
  | posH (t : Fin 2 → K)
  | posV (t : K)

/-- one reset -/
def Est.applyReset (e : Est K) : ResetOp K → Est K
  | .velH t => e.resetHorizontalVelocityTo t
  | .velV t => e.resetVerticalVelocityTo t
  | .vel t => e.resetVelocityTo t
  | .posH t => e.resetHorizontalPositionTo t
  | .posV t => e.resetVerticalPositionTo t

/-- any sequence of resets -/
def Est.applyResets (e : Est K) (ops : List (ResetOp K)) : Est K := ops.foldl Est.applyReset e

theorem Spec.ShiftedBy.refl (e : Est K) : Spec.ShiftedBy e e 0 0 :=
  ⟨by simp, by simp, rfl, by simp, by simp, rfl, by simp⟩

theorem Spec.ShiftedBy.trans {a b c : Est K} {dv dp dv' dp' : V3 K} (h : Spec.ShiftedBy a b dv dp)
    (h' : Spec.ShiftedBy b c dv' dp') : Spec.ShiftedBy a c (dv + dv') (dp + dp') := by
  refine ⟨by rw [h'.vel, h.vel, add_assoc], by rw [h'.pos, h.pos, add_assoc], ?_,
    by rw [h'.outVel, h.outVel, add_assoc], by rw [h'.outPos, h.outPos, add_assoc], by rw [h'.outQuat, h.outQuat], ?_⟩
  · have h1 := h.rest; have h2 := h'.rest
    rw [State.ext_iff] at h1 h2 ⊢
    simp only at h1 h2 ⊢
    exact ⟨h2.1.trans h1.1, trivial, trivial, h2.2.2.2.1.trans h1.2.2.2.1, h2.2.2.2.2.1.trans h1.2.2.2.2.1,
      h2.2.2.2.2.2.1.trans h1.2.2.2.2.2.1, h2.2.2.2.2.2.2.1.trans h1.2.2.2.2.2.2.1,
      h2.2.2.2.2.2.2.2.trans h1.2.2.2.2.2.2.2⟩
  · rw [h'.history, h.history, List.map_map]
    apply List.map_congr_left
    intro s _
    simp [add_assoc]

theorem applyReset_shifted (e : Est K) (op : ResetOp K) : ∃ dv dp, Spec.ShiftedBy e (e.applyReset op) dv dp := by
  cases op with
  | velH t => exact ⟨_, _, (resetHorizontalVelocityTo_spec e t).2.1⟩
  | velV t => exact ⟨_, _, (resetVerticalVelocityTo_spec e t).2.1⟩
  | vel t => exact ⟨_, _, (resetHorizontalVelocityTo_spec e _).2.1.trans (resetVerticalVelocityTo_spec _ _).2.1⟩
  | posH t => exact ⟨_, _, (resetHorizontalPositionTo_spec e t).2.1⟩
  | posV t => exact ⟨_, _, (resetVerticalPositionTo_spec e t).2.1⟩

/-- **C22.** Over any sequence of velocity and position resets, the tracking error (EKF state minus output state) of
the current output and of every stored output state stays exactly what it was. -/
theorem tracking_error_invariant (e : Est K) (ops : List (ResetOp K)) :
    let e' := e.applyResets ops
    e'.state.vel - e'.outNew.vel = e.state.vel - e.outNew.vel ∧
    e'.state.pos - e'.outNew.pos = e.state.pos - e.outNew.pos ∧
    e'.outBuf.live.map (fun s => (s.time_us, s.data.quat, e'.state.vel - s.data.vel, e'.state.pos - s.data.pos)) =
      e.outBuf.live.map (fun s => (s.time_us, s.data.quat, e.state.vel - s.data.vel, e.state.pos - s.data.pos)) := by
  have key : ∃ dv dp, Spec.ShiftedBy e (e.applyResets ops) dv dp := by
    induction ops using List.reverseRecOn with
    | nil => exact ⟨0, 0, Spec.ShiftedBy.refl e⟩
    | append_singleton ops op ih =>
      obtain ⟨dv, dp, h⟩ := ih
      obtain ⟨dv', dp', h'⟩ := applyReset_shifted (e.applyResets ops) op
      refine ⟨dv + dv', dp + dp', ?_⟩
      have : e.applyResets (ops ++ [op]) = (e.applyResets ops).applyReset op := by
        unfold Est.applyResets; rw [List.foldl_append]; rfl
      rw [this]
      exact h.trans h'
  obtain ⟨dv, dp, h⟩ := key
  refine ⟨by rw [h.vel, h.outVel]; abel, by rw [h.pos, h.outPos]; abel, ?_⟩
  rw [h.history, List.map_map]
  apply List.map_congr_left
  intro s _
  simp only [Function.comp, h.vel, h.pos]
  congr 3 <;> abel

/-- **C21 (counters over any history).** Each reset counter counts the resets of its kind, modulo 256. -/
theorem counters_count (e : Est K) (ops : List (ResetOp K)) :
    let e' := e.applyResets ops
    e'.reset.velNECounter.toNat = (e.reset.velNECounter.toNat +
      ops.countP (fun o => match o with | .velH _ => true | .vel _ => true | _ => false)) % 256 ∧
    e'.reset.velDCounter.toNat = (e.reset.velDCounter.toNat +
      ops.countP (fun o => match o with | .velV _ => true | .vel _ => true | _ => false)) % 256 ∧
    e'.reset.posNECounter.toNat = (e.reset.posNECounter.toNat +
      ops.countP (fun o => match o with | .posH _ => true | _ => false)) % 256 ∧
    e'.reset.posDCounter.toNat = (e.reset.posDCounter.toNat +
      ops.countP (fun o => match o with | .posV _ => true | _ => false)) % 256 ∧
    e'.reset.quatCounter = e.reset.quatCounter := by
  induction ops generalizing e with
  | nil =>
    simp only [Est.applyResets, List.foldl_nil, List.countP_nil, Nat.add_zero]
    refine ⟨?_, ?_, ?_, ?_, trivial⟩ <;> exact (Nat.mod_eq_of_lt (UInt8.toNat_lt _)).symm
  | cons op ops ih =>
    obtain ⟨h1, h2, h3, h4, h5⟩ := ih (e.applyReset op)
    have hstep : e.applyResets (op :: ops) = (e.applyReset op).applyResets ops := rfl
    have one : (1 : UInt8).toNat = 1 := rfl
    rw [hstep]
    simp only [List.countP_cons]
    rw [h1, h2, h3, h4, h5]
    cases op with
    | velH t =>
      have a : (e.applyReset (.velH t)).reset.velNECounter = e.reset.velNECounter + 1 := rfl
      rw [a, UInt8.toNat_add, one]
      refine ⟨?_, ?_, ?_, ?_, rfl⟩ <;> simp [Est.applyReset, Est.resetHorizontalVelocityTo] <;> omega
    | velV t =>
      have a : (e.applyReset (.velV t)).reset.velDCounter = e.reset.velDCounter + 1 := rfl
      rw [a, UInt8.toNat_add, one]
      refine ⟨?_, ?_, ?_, ?_, rfl⟩ <;> simp [Est.applyReset, Est.resetVerticalVelocityTo] <;> omega
    | vel t =>
      have a : (e.applyReset (.vel t)).reset.velNECounter = e.reset.velNECounter + 1 := rfl
      have b : (e.applyReset (.vel t)).reset.velDCounter = e.reset.velDCounter + 1 := rfl
      rw [a, b, UInt8.toNat_add, UInt8.toNat_add, one]
      refine ⟨?_, ?_, ?_, ?_, rfl⟩ <;> simp [Est.applyReset, Est.resetVelocityTo, Est.resetHorizontalVelocityTo,
        Est.resetVerticalVelocityTo] <;> omega
    | posH t =>
      have a : (e.applyReset (.posH t)).reset.posNECounter = e.reset.posNECounter + 1 := rfl
      rw [a, UInt8.toNat_add, one]
      refine ⟨?_, ?_, ?_, ?_, rfl⟩ <;> simp [Est.applyReset, Est.resetHorizontalPositionTo] <;> omega
    | posV t =>
      have a : (e.applyReset (.posV t)).reset.posDCounter = e.reset.posDCounter + 1 := rfl
      rw [a, UInt8.toNat_add, one]
      refine ⟨?_, ?_, ?_, ?_, rfl⟩ <;> simp [Est.applyReset, Est.resetVerticalPositionTo] <;> omega

/-- **C21 (published outputs).** The published velocity and position jump by exactly the reported amounts. -/
theorem published_jump (e : Est K) (tv : Fin 2 → K) (tp : Fin 2 → K) (tvd tpd : K) (w : V3 K) (R : M3 K) (b : V3 K) :
    ((e.resetHorizontalVelocityTo tv).getVelocity w = e.getVelocity w +
      ![(e.resetHorizontalVelocityTo tv).reset.velNE 0, (e.resetHorizontalVelocityTo tv).reset.velNE 1, 0]) ∧
    ((e.resetVerticalVelocityTo tvd).getVelocity w = e.getVelocity w +
      ![0, 0, (e.resetVerticalVelocityTo tvd).reset.velD]) ∧
    ((e.resetHorizontalPositionTo tp).getPosition R b = e.getPosition R b +
      ![(e.resetHorizontalPositionTo tp).reset.posNE 0, (e.resetHorizontalPositionTo tp).reset.posNE 1, 0]) ∧
    ((e.resetVerticalPositionTo tpd).getPosition R b = e.getPosition R b +
      ![0, 0, (e.resetVerticalPositionTo tpd).reset.posD]) := by
  unfold Est.getVelocity Est.getPosition
  refine ⟨?_, ?_, ?_, ?_⟩
  · rw [(resetHorizontalVelocityTo_spec e tv).2.1.outVel]; abel
  · rw [(resetVerticalVelocityTo_spec e tvd).2.1.outVel]; abel
  · rw [(resetHorizontalPositionTo_spec e tp).2.1.outPos]; abel
  · rw [(resetVerticalPositionTo_spec e tpd).2.1.outPos]; abel

/-- a concrete estimator with one stored output -/
def exampleEst : Est ℚ where
  state := ⟨⟨1, 0, 0, 0⟩, ![1, 2, 3], ![4, 5, 6], 0, 0, 0, 0, 0⟩
  outBuf := ⟨some [⟨10, ⟨⟨1, 0, 0, 0⟩, ![1, 1, 1], ![2, 2, 2]⟩⟩], 0, 0, 1, false⟩
  vertBuf := ⟨some [⟨10, ⟨1, 2, 0⟩⟩], 0, 0, 1, false⟩
  outNew := ⟨⟨1, 0, 0, 0⟩, ![1, 1, 1], ![2, 2, 2]⟩
  vertNew := ⟨1, 2, 0⟩
  reset := ⟨0, 0, 0, 0, ⟨1, 0, 0, 0⟩, 0, 0, 0, 0, 255⟩

/-- Non-vacuity: resets with non-zero deltas; the current alternative vertical position of this state is not shifted
by the reported amount. -/
example : (exampleEst.resetVerticalPositionTo 10).reset.posD = 4 ∧
    (exampleEst.resetVerticalPositionTo 10).vertNew.vertVelInteg - exampleEst.vertNew.vertVelInteg = 8 := by
  constructor <;> simp [exampleEst, Est.resetVerticalPositionTo] <;> norm_num

/-! ### C66: yaw reset -/

section yaw
open scoped Matrix

theorem quat_inv_mul {q : Quat K} (h : q.normSq = 1) : q.inversed.mul q = Quat.one := by
  rw [Quat.inversed_of_unit h]
  unfold Quat.normSq at h
  ext <;> simp only [Quat.mul, Quat.one] <;> first | linear_combination h | ring

theorem quat_mul_inv {q : Quat K} (h : q.normSq = 1) : q.mul q.inversed = Quat.one := by
  rw [Quat.inversed_of_unit h]
  unfold Quat.normSq at h
  ext <;> simp only [Quat.mul, Quat.one] <;> first | linear_combination h | ring

theorem quat_inv_unit {q : Quat K} (h : q.normSq = 1) : q.inversed.normSq = 1 := by
  rw [Quat.inversed_of_unit h]; unfold Quat.normSq at *; simpa using h

theorem quat_inv_mul_rev {p q : Quat K} (hp : p.normSq = 1) (hq : q.normSq = 1) :
    (p.mul q).inversed = q.inversed.mul p.inversed := by
  have hpq : (p.mul q).normSq = 1 := by rw [Quat.normSq_mul, hp, hq, _root_.mul_one]
  rw [Quat.inversed_of_unit hpq, Quat.inversed_of_unit hp, Quat.inversed_of_unit hq]
  ext <;> simp only [Quat.mul] <;> ring

/-- assumptions on the vector library: conversion of a proper rotation matrix to a unit quaternion representing it,
and normalisation leaving unit quaternions unchanged -/
structure QuatLib (ofDcm : M3 ℝ → Quat ℝ) (normalize : Quat ℝ → Quat ℝ) : Prop where
  ofDcm_dcm : ∀ R, Utils.IsRotation R → (ofDcm R).dcm = R
  ofDcm_unit : ∀ R, Utils.IsRotation R → (ofDcm R).normSq = 1
  normalize_unit : ∀ q : Quat ℝ, q.normSq = 1 → normalize q = q

/-- **C66.** A yaw reset of a unit-quaternion state: the new attitude is a unit quaternion with the requested yaw and
unchanged tilt; the reported quaternion times the old attitude is the new attitude; with `update_buffer` the attitude
of the current output and of every stored output is multiplied by the reported quaternion, so the attitude of the
output relative to the EKF attitude is unchanged; the counter is incremented; nothing else changes. -/
theorem resetQuatStateYaw_spec {ofDcm : M3 ℝ → Quat ℝ} {normalize : Quat ℝ → Quat ℝ} (lib : QuatLib ofDcm normalize)
    (e : Est ℝ) (yaw : ℝ) (hy : yaw ∈ Set.Ioc (-Real.pi) Real.pi) (hq : e.state.quat.normSq = 1) (ub : Bool) :
    let e' := e.resetQuatStateYaw ofDcm normalize yaw ub
    e'.state = { e.state with quat := e'.state.quat } ∧ e'.state.quat.normSq = 1 ∧
    (Utils.shouldUse321 e.state.quat.dcm → Utils.getEuler321YawQ e'.state.quat = yaw) ∧
    (¬ Utils.shouldUse321 e.state.quat.dcm → Utils.getEuler312YawQ e'.state.quat = yaw) ∧
    Utils.tiltRow e'.state.quat.dcm = Utils.tiltRow e.state.quat.dcm ∧
    e'.reset.quat.mul e.state.quat = e'.state.quat ∧ e'.reset.quat.normSq = 1 ∧
    e'.reset = { e.reset with quat := e'.reset.quat, quatCounter := e.reset.quatCounter + 1 } ∧
    (ub = true →
      e'.outNew = { e.outNew with quat := e'.reset.quat.mul e.outNew.quat } ∧
      e'.outBuf.live = e.outBuf.live.map (fun s => ⟨s.time_us, { s.data with quat := e'.reset.quat.mul s.data.quat }⟩) ∧
      ∀ q : Quat ℝ, e'.state.quat.inversed.mul (e'.reset.quat.mul q) = e.state.quat.inversed.mul q) ∧
    (ub = false → e'.outNew = e.outNew ∧ e'.outBuf = e.outBuf) ∧
    e'.vertBuf = e.vertBuf ∧ e'.vertNew = e.vertNew := by
  have hrot : Utils.IsRotation e.state.quat.dcm :=
    Utils.isRotation_of_orth (Quat.dcm_mul_transpose _ hq) (Quat.dcm_det _ hq)
  obtain ⟨hr', htilt, h321, h312⟩ := Utils.updateYaw_spec yaw hy _ hrot
  have hafter := lib.ofDcm_dcm _ hr'
  have hunit := lib.ofDcm_unit _ hr'
  have hinv := quat_inv_unit hq
  have hmul : ((ofDcm (Utils.updateYawInRotMat yaw e.state.quat.dcm)).mul e.state.quat.inversed).normSq = 1 := by
    rw [Quat.normSq_mul, hunit, hinv, _root_.mul_one]
  have hn := lib.normalize_unit _ hmul
  have hback : (normalize ((ofDcm (Utils.updateYawInRotMat yaw e.state.quat.dcm)).mul e.state.quat.inversed)).mul
      e.state.quat = ofDcm (Utils.updateYawInRotMat yaw e.state.quat.dcm) := by
    rw [hn, Quat.mul_assoc, quat_inv_mul hq, Quat.mul_one]
  refine ⟨rfl, hunit, ?_, ?_, ?_, hback, by simpa [Est.resetQuatStateYaw, hn] using hmul, rfl, ?_, ?_, rfl, rfl⟩
  · intro h
    rw [(Utils.yaw_extractors_agree _).1]
    show Utils.getEuler321Yaw (ofDcm _).dcm = yaw
    rw [hafter]; exact h321 h
  · intro h
    rw [(Utils.yaw_extractors_agree _).2]
    show Utils.getEuler312Yaw (ofDcm _).dcm = yaw
    rw [hafter]; exact h312 h
  · show Utils.tiltRow (ofDcm _).dcm = _
    rw [hafter]; exact htilt
  · rintro rfl
    refine ⟨by simp [Est.resetQuatStateYaw], ?_, ?_⟩
    · simp only [Est.resetQuatStateYaw, if_true]
      rw [live_mapAll]
    · intro q
      show (ofDcm _).inversed.mul ((normalize _).mul q) = _
      rw [hn, ← Quat.mul_assoc, ← Quat.mul_assoc, quat_inv_mul hunit, Quat.one_mul]
  · rintro rfl
    exact ⟨by simp [Est.resetQuatStateYaw], by simp [Est.resetQuatStateYaw]⟩

end yaw

/-! ### C67: output alignment -/

theorem mapAll_getOldest {α : Type*} (f : α → α) (b : RB α) {x : Sample α} (h : b.getOldest = .ok x) :
    (b.mapAll f).getOldest = .ok ⟨x.time_us, f x.data⟩ := by
  unfold RB.getOldest at *
  unfold RB.mapAll
  cases hb : b.buffer with
  | none => rw [hb] at h; simp at h
  | some l =>
    rw [hb] at h
    simp only at h
    simp only [Option.map_some, List.getElem?_map]
    split at h
    · next y hy => simp only [Except.ok.injEq] at h; subst h; rw [hy]; rfl
    · simp at h

theorem mapAll_getNewest {α : Type*} (f : α → α) (b : RB α) {x : Sample α} (h : b.getNewest = .ok x) :
    (b.mapAll f).getNewest = .ok ⟨x.time_us, f x.data⟩ := by
  unfold RB.getNewest at *
  unfold RB.mapAll
  cases hb : b.buffer with
  | none => rw [hb] at h; simp at h
  | some l =>
    rw [hb] at h
    simp only at h
    simp only [Option.map_some, List.getElem?_map]
    split at h
    · next y hy => simp only [Except.ok.injEq] at h; subst h; rw [hy]; rfl
    · simp at h

/-- **C67.** If the stored attitudes and the EKF attitude are unit quaternions and normalisation keeps unit
quaternions, `alignOutputFilter` makes the oldest stored output equal to the EKF state, keeps all velocity and
position differences and relative attitudes between stored outputs, and sets the current output to the newest. -/
theorem alignOutputFilter_spec (normalize : Quat K → Quat K)
    (hnorm : ∀ q : Quat K, q.normSq = 1 → normalize q = q) (e : Est K) (o n : Sample (OutData K))
    (ho : e.outBuf.getOldest = .ok o) (hn : e.outBuf.getNewest = .ok n)
    (hs : e.state.quat.normSq = 1) (hu : ∀ s ∈ e.outBuf.live, s.data.quat.normSq = 1) (hou : o.data.quat.normSq = 1)
    (hnu : n.data.quat.normSq = 1) :
    ∃ e', e.alignOutputFilter normalize = .ok e' ∧
      e'.outBuf.getOldest = .ok ⟨o.time_us, ⟨e.state.quat, e.state.vel, e.state.pos⟩⟩ ∧
      e'.state = e.state ∧
      (∃ qd : Quat K, qd.normSq = 1 ∧
        e'.outBuf.live = e.outBuf.live.map (fun s => ⟨s.time_us, ⟨qd.mul s.data.quat,
          s.data.vel + (e.state.vel - o.data.vel), s.data.pos + (e.state.pos - o.data.pos)⟩⟩) ∧
        e'.outBuf.getNewest = .ok ⟨n.time_us, e'.outNew⟩ ∧
        e'.outNew.quat = qd.mul n.data.quat ∧
        ∀ p q : Quat K, p.normSq = 1 → q.normSq = 1 →
          (qd.mul p).inversed.mul (qd.mul q) = p.inversed.mul q) := by
  have hqd : (e.state.quat.mul o.data.quat.inversed).normSq = 1 := by
    rw [Quat.normSq_mul, hs, quat_inv_unit hou, _root_.mul_one]
  have hqn := hnorm _ hqd
  set qd := e.state.quat.mul o.data.quat.inversed with hqdef
  have hmulu : ∀ q : Quat K, q.normSq = 1 → normalize (qd.mul q) = qd.mul q := by
    intro q hq
    apply hnorm
    rw [Quat.normSq_mul, hqd, hq, _root_.mul_one]
  unfold Est.alignOutputFilter
  rw [ho]
  simp only
  rw [mapAll_getNewest _ _ hn]
  simp only [← hqdef, hqn]
  refine ⟨_, rfl, ?_, rfl, qd, hqd, ?_, ?_, ?_, ?_⟩
  · simp only
    rw [mapAll_getOldest _ _ ho, hmulu _ hou]
    simp only [hqdef]
    rw [Quat.mul_assoc, quat_inv_mul hou, Quat.mul_one]
    congr 3 <;> simp
  · simp only
    rw [live_mapAll]
    apply List.map_congr_left
    intro s hs'
    simp only [hmulu _ (hu s hs')]
  · simp only
    rw [mapAll_getNewest _ _ hn]
  · simp only
    exact hmulu _ hnu
  · intro p q hp hq
    rw [quat_inv_mul_rev hqd hp, Quat.mul_assoc, ← Quat.mul_assoc qd.inversed, quat_inv_mul hqd, Quat.one_mul]

/-- Non-vacuity of C66/C67. -/
example : exampleEst.state.quat.normSq = 1 ∧ exampleEst.outBuf.getOldest = exampleEst.outBuf.getNewest ∧
    ∃ o, exampleEst.outBuf.getOldest = .ok o ∧ o.data.quat.normSq = 1 := by
  refine ⟨by simp [exampleEst, Quat.normSq], rfl, _, rfl, by simp [Quat.normSq]⟩

end Ecl.Ekf
