import Verif.Whole.Attitude

/-!
# What a prediction and a reset leave in the filter
-/

namespace Ecl.Whole

open Ecl.Cov Ecl.Fusion Ecl.Ekf

/-- **C137 (reset).** `reset` leaves level attitude and zero in all other states, the IMU statistics of a fresh filter, and the covariance, inhibition flags and
variance accumulators as they were. -/
theorem reset_leaves (w : W) :
    let r := reset w
    (∀ i : Fin N, r.f.s i = if i = 0 then 1 else 0) ∧ r.f.M.mag3D = false ∧ r.f.M.magHdg = false ∧ (∀ a, r.f.prevVar a = 0) ∧ r.f.badAccBias = false ∧
    r.dtEkfAvg = 1 / 100 ∧ r.angRateRaw = 0 ∧ r.accFilt = 0 ∧ r.angFilt = 0 ∧ r.clip = false ∧
    r.f.P = w.f.P ∧ r.inhibit = w.inhibit ∧ r.acc = w.acc ∧ r.R = w.R ∧ r.accelLpf = w.accelLpf ∧ r.heightRate = w.heightRate := by
  refine ⟨fun i => rfl, rfl, rfl, fun a => rfl, rfl, ?_, rfl, rfl, rfl, rfl, rfl, rfl, rfl, rfl, rfl, rfl⟩
  show filterPeriod = _
  unfold filterPeriod; norm_num

/-- **C137 (prediction).** The filtered height rate used for the wind process noise moves by a thousandth of the way towards the predicted down velocity; the mode flags of the
magnetometer are not touched; the reported clipping fault is that of the IMU sample. -/
theorem predict_leaves (x : PredictIn) (w : W) :
    let r := predict x w
    r.heightRate = w.heightRate + (r.f.s 6 - w.heightRate) / 1000 ∧ r.f.M.mag3D = w.f.M.mag3D ∧ r.f.M.magHdg = w.f.M.magHdg ∧
    r.f.s 6 = (Strap.predict x.L x.accBiasLim x.earthRate x.imu ⟨toState w.f.s, w.R, w.accelLpf, w.dtEkfAvg, w.angRateRaw⟩).state.vel 2 := by
  refine ⟨?_, rfl, rfl, rfl⟩
  show heightRateLpf w.heightRate ((Strap.predict x.L x.accBiasLim x.earthRate x.imu ⟨toState w.f.s, w.R, w.accelLpf, w.dtEkfAvg, w.angRateRaw⟩).state.vel 2) = _
  unfold heightRateLpf filterPeriod
  have : (predict x w).f.s 6 = (Strap.predict x.L x.accBiasLim x.earthRate x.imu ⟨toState w.f.s, w.R, w.accelLpf, w.dtEkfAvg, w.angRateRaw⟩).state.vel 2 := rfl
  rw [this]; ring

/-- **C137 (bias inhibition in a prediction).** After a prediction, learning of the bias of body axis `a` is inhibited exactly when it is disabled, the peak-hold rate or acceleration of
this sample exceeds its limit, the vertical accelerometer is faulty, the sample was clipped on this axis, or the axis is more than 37 degrees off the vertical of the predicted attitude
while not flying. -/
theorem predict_inhibits (x : PredictIn) (w : W) (a : Fin 3) :
    let r := predict x w
    r.angFilt = max (100 * norm3 x.imu.deltaAng) ((1 - max 0 (min (1 / 100 / x.inh.tc) 1)) * w.angFilt) ∧
    r.accFilt = max (100 * norm3 x.imu.deltaVel) ((1 - max 0 (min (1 / 100 / x.inh.tc) 1)) * w.accFilt) ∧
    (r.inhibit a = true ↔ x.inh.maskInhibit = true ∨ x.inh.gyrLim < r.angFilt ∨ x.inh.accLim < r.accFilt ∨ x.inh.badAccVertical = true ∨
      (|r.R 2 a| ≤ 8 / 10 ∧ x.inh.inAir = false) ∨ x.imu.clip a = true) := by
  set p := Strap.predict x.L x.accBiasLim x.earthRate x.imu ⟨toState w.f.s, w.R, w.accelLpf, w.dtEkfAvg, w.angRateRaw⟩ with hp
  obtain ⟨h1, -, -, -, h5, h6⟩ := inhibit_spec
    { x.inh with rot2 := p.R 2, clipping := x.imu.clip, dAngNorm := norm3 x.imu.deltaAng, dVelNorm := norm3 x.imu.deltaVel }
    ⟨w.angFilt, w.accFilt, w.inhibit, w.f.prevVar, w.f.P⟩ a
  refine ⟨h5, h6, ?_⟩
  have e5 := h5
  have e6 := h6
  rw [← h5, ← h6] at h1
  exact h1

/-- **C137 (power-up).** A filter that was just constructed is not changed by a reset. -/
theorem powerOn_is_reset : reset powerOn = powerOn := by
  unfold reset powerOn
  simp

end Ecl.Whole
