import Verif.Basic.RealTrig
import Mathlib.Data.Matrix.Mul

/-!
# `ImuDownSampler` — EKF/imu_down_sampler.cpp, EKF/imu_down_sampler.hpp

Floats are exact reals.  The axis-angle conversions belong to the external matrix library and are a
parameter (`AxisAngleLib`).
-/

noncomputable section

namespace Ecl.ImuDownSampler

open scoped Matrix

/-- `imuSample`, EKF/common.h:95-102 -/
structure ImuSample where
  timeUs : UInt64
  deltaAng : V3 ℝ
  deltaVel : V3 ℝ
  deltaAngDt : ℝ
  deltaVelDt : ℝ
  clip : Fin 3 → Bool

/-- the two axis-angle conversions of the external matrix library: `Quatf(AxisAnglef(v))` always yields a
unit quaternion; `AxisAnglef(q)` is unconstrained here -/
structure AxisAngleLib where
  exp : V3 ℝ → Quat ℝ
  log : Quat ℝ → V3 ℝ
  exp_unit : ∀ v, (exp v).normSq = 1

/-- members of `ImuDownSampler`, EKF/imu_down_sampler.hpp:64-68 -/
structure Sampler where
  acc : ImuSample
  q : Quat ℝ
  target : ℝ
  adj : ℝ
  doReset : Bool

/-- `Quaternion::normalize` of the external matrix library -/
def normalize (q : Quat ℝ) : Quat ℝ :=
  let n := Real.sqrt q.normSq
  ⟨q.w / n, q.x / n, q.y / n, q.z / n⟩

/-- `ImuDownSampler::reset`, EKF/imu_down_sampler.cpp:54-65 -/
def Sampler.reset (s : Sampler) : Sampler :=
  { s with
    acc := { s.acc with
      deltaAng := 0, deltaVel := 0, deltaAngDt := 0, deltaVelDt := 0, clip := fun _ => false }
    q := Quat.one
    doReset := false }

/-- constructor, EKF/imu_down_sampler.cpp:3 -/
def Sampler.init (target : ℝ) : Sampler :=
  Sampler.reset ⟨⟨0, 0, 0, 0, 0, fun _ => false⟩, Quat.one, target, 0, true⟩

/-- accumulation part of `ImuDownSampler::update`, EKF/imu_down_sampler.cpp:10-34
(`bool += bool` at :18-20 is a disjunction) -/
def Sampler.accumulate (L : AxisAngleLib) (s0 : Sampler) (x : ImuSample) : Sampler :=
  let s := if s0.doReset then s0.reset else s0
  let dq := L.exp x.deltaAng
  let dR := dq.inversed.dcm
  { s with
    q := normalize (s.q.mul dq)
    acc := { s.acc with
      deltaAngDt := s.acc.deltaAngDt + x.deltaAngDt
      deltaVelDt := s.acc.deltaVelDt + x.deltaVelDt
      timeUs := x.timeUs
      clip := fun i => s.acc.clip i || x.clip i
      deltaVel := dR *ᵥ s.acc.deltaVel + (1 / 2 : ℝ) • (x.deltaVel + dR *ᵥ x.deltaVel) } }

open Classical in
/-- `ImuDownSampler::update`, EKF/imu_down_sampler.cpp:8-52 -/
def Sampler.update (L : AxisAngleLib) (s0 : Sampler) (x : ImuSample) : Sampler × Bool :=
  let s := s0.accumulate L x
  if s.acc.deltaAngDt ≥ s.target - s.adj then
    let adj := s.adj + (1 / 100) * (s.acc.deltaAngDt - s.target)
    ({ s with
        adj := constrain adj (-(1 / 2) * s.target) ((1 / 2) * s.target)
        acc := { s.acc with deltaAng := L.log s.q } }, true)
  else (s, false)

/-- `getDownSampledImuAndTriggerReset`, EKF/imu_down_sampler.hpp:55-59 -/
def Sampler.take (s : Sampler) : Sampler × ImuSample := ({ s with doReset := true }, s.acc)

/-- The way the sampler is used by `EstimatorInterface::setIMUData`, EKF/estimator_interface.cpp:71-76: feed a
sample, fetch the down-sampled one whenever `update` returns true. -/
def Sampler.feed (L : AxisAngleLib) (s : Sampler) (x : ImuSample) : Sampler × List ImuSample :=
  let r := s.update L x
  if r.2 then ((r.1.take).1, [(r.1.take).2]) else (r.1, [])

/-- feed a sequence of samples, collecting the emitted ones -/
def Sampler.run (L : AxisAngleLib) : Sampler → List ImuSample → Sampler × List ImuSample
  | s, [] => (s, [])
  | s, x :: xs =>
    let r := s.feed L x
    let r' := Sampler.run L r.1 xs
    (r'.1, r.2 ++ r'.2)

end Ecl.ImuDownSampler
