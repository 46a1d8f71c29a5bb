import Verif.Basic.Rot
import Verif.RingBuffer.Lemmas

/-!
# EKF state, output predictor samples, reset bookkeeping — EKF/common.h, EKF/ekf.h
-/

namespace Ecl.Ekf

open Ecl.RingBuffer

/-- `stateSample`, EKF/common.h:378-387 -/
@[ext] structure State (K : Type*) where
  quat : Quat K
  vel : V3 K
  pos : V3 K
  dAngBias : V3 K
  dVelBias : V3 K
  magI : V3 K
  magB : V3 K
  wind : Fin 2 → K

/-- payload of `outputSample`, EKF/common.h:82-87 -/
@[ext] structure OutData (K : Type*) where
  quat : Quat K
  vel : V3 K
  pos : V3 K

/-- payload of `outputVert`, EKF/common.h:89-94 -/
@[ext] structure VertData (K : Type*) where
  vertVel : K
  vertVelInteg : K
  dt : K

/-- `_state_reset_status`, EKF/ekf.h:314-325 -/
@[ext] structure ResetStatus (K : Type*) where
  velNE : Fin 2 → K
  velD : K
  posNE : Fin 2 → K
  posD : K
  quat : Quat K
  velNECounter : UInt8
  velDCounter : UInt8
  posNECounter : UInt8
  posDCounter : UInt8
  quatCounter : UInt8

/-- the part of the estimator touched by resets: state, output predictor and reset bookkeeping -/
structure Est (K : Type*) where
  state : State K
  outBuf : RB (OutData K)
  vertBuf : RB (VertData K)
  outNew : OutData K
  vertNew : VertData K
  reset : ResetStatus K

end Ecl.Ekf

namespace Ecl.RingBuffer

/-- `for (i = 0; i < buffer.get_length(); i++) modify(buffer[i])`: the loops of EKF/ekf_helper.cpp:142, 157, 227,
251, 352, 1577 and EKF/ekf.cpp:508 -/
def RB.mapAll {α : Type*} (f : α → α) (b : RB α) : RB α :=
  { b with buffer := b.buffer.map (List.map fun s => { s with data := f s.data }) }

theorem live_mapAll {α : Type*} (f : α → α) (b : RB α) :
    (b.mapAll f).live = b.live.map fun s => ⟨s.time_us, f s.data⟩ := by
  unfold RB.live RB.mapAll RB.count
  cases hb : b.buffer with
  | none => rfl
  | some l =>
    simp only [Option.map_some, List.getElem?_map]
    rw [List.map_filterMap]

theorem mapAll_inv {α : Type*} (f : α → α) {b : RB α} {n : ℕ} (h : b.Inv n) : (b.mapAll f).Inv n := by
  obtain ⟨l, hl, hlen, hz⟩ := h.buf
  refine ⟨h.pos, h.size, h.head, h.tail, l.map (fun s => { s with data := f s.data }), ?_, by simpa using hlen, ?_⟩
  · unfold RB.mapAll; simp [hl]
  · intro hf
    obtain ⟨h1, h2⟩ := hz hf
    refine ⟨h1, ?_⟩
    intro x hx
    have hx' : (l.map (fun s : Sample α => ({ s with data := f s.data } : Sample α)))[b.head]? = some x := hx
    rw [List.getElem?_map, Option.map_eq_some_iff] at hx'
    obtain ⟨y, hy, rfl⟩ := hx'
    exact h2 y hy

end Ecl.RingBuffer
