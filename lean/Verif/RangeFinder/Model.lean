import Verif.Basic.Num
import Verif.Basic.RealTrig

/-!
# `SensorRangeFinder` — EKF/sensor_range_finder.cpp, EKF/sensor_range_finder.hpp

Floats are an arbitrary linearly ordered field `K` (exact arithmetic); the conversion of the `uint64_t` age to
float at sensor_range_finder.cpp:99 is exact here.  64-bit times wrap as in the code.
-/

namespace Ecl.RangeFinder

/-- `rangeSample`, EKF/common.h:125-129 -/
structure RangeSample (K : Type*) where
  timeUs : UInt64
  rng : K
  quality : Int

/-- data members, EKF/sensor_range_finder.hpp:115-155 -/
structure RF (K : Type*) where
  sample : RangeSample K
  ready : Bool
  valid : Bool
  regular : Bool
  timeLastValid : UInt64
  stuck : Bool
  stuckMin : K
  stuckMax : K
  dtLpf : K
  cosTilt : K
  cosMaxTilt : K
  pitchOffset : K
  sinPitch : K
  cosPitch : K
  minVal : K
  maxVal : K
  timeBadQuality : UInt64
  qualityHyst : UInt64

variable {K : Type*} [Field K] [LinearOrder K] [IsStrictOrderedRing K]

/-- member initialisers, EKF/sensor_range_finder.hpp:115-155 -/
def RF.init : RF K where
  sample := ⟨0, 0, 0⟩
  ready := false
  valid := false
  regular := false
  timeLastValid := 0
  stuck := false
  stuckMin := 0
  stuckMax := 0
  dtLpf := 0
  cosTilt := 0
  cosMaxTilt := 7071 / 10000
  pitchOffset := 314 / 100
  sinPitch := 0
  cosPitch := -1
  minVal := 0
  maxVal := 0
  timeBadQuality := 0
  qualityHyst := 0

/-- `_stuck_threshold`, EKF/sensor_range_finder.hpp:126 -/
def stuckThreshold : K := 1 / 10

/-- `_dt_update`, EKF/sensor_range_finder.hpp:133 -/
def dtUpdate : K := 1 / 100

/-- `setSample`, EKF/sensor_range_finder.hpp:62-65 -/
def RF.setSample (s : RF K) (x : RangeSample K) : RF K := { s with sample := x, ready := true }

/-- `setDataReadiness`, EKF/sensor_range_finder.hpp:98 -/
def RF.setDataReadiness (s : RF K) (b : Bool) : RF K := { s with ready := b }

/-- delivery of a ring-buffer pop through `getSampleAddress` followed by `setDataReadiness`,
EKF/control.cpp:125-126: the sample is overwritten only on success -/
def RF.deliver (s : RF K) : Option (RangeSample K) → RF K
  | some x => { s with sample := x, ready := true }
  | none => { s with ready := false }

/-- `isHealthy`, `isDataHealthy`, `isRegularlySendingData`, EKF/sensor_range_finder.hpp:58-60 -/
def RF.isHealthy (s : RF K) : Bool := s.valid
def RF.isDataHealthy (s : RF K) : Bool := s.ready && s.valid
def RF.isRegularlySendingData (s : RF K) : Bool := s.regular

/-- `setLimits`, EKF/sensor_range_finder.hpp:82-85 -/
def RF.setLimits (s : RF K) (mn mx : K) : RF K := { s with minVal := mn, maxVal := mx }

/-- `setCosMaxTilt`, EKF/sensor_range_finder.hpp:80 -/
def RF.setCosMaxTilt (s : RF K) (c : K) : RF K := { s with cosMaxTilt := c }

/-- `updateSensorToEarthRotation`, EKF/sensor_range_finder.cpp:54-59 (only R(2,0) and R(2,2) are used) -/
def RF.updateSensorToEarthRotation (s : RF K) (R20 R22 : K) : RF K :=
  { s with cosTilt := R20 * s.sinPitch + R22 * s.cosPitch }

/-- `updateDtDataLpf`, EKF/sensor_range_finder.cpp:95-103 -/
def RF.updateDtDataLpf (s : RF K) (now : UInt64) : RF K :=
  let alpha : K := (1 / 2) * dtUpdate
  let l := s.dtLpf * (1 - alpha) + alpha * ((now - s.sample.timeUs).toNat : K)
  { s with dtLpf := mmin l 4000000 }

/-- `isSampleOutOfDate`, EKF/sensor_range_finder.cpp:105-108; `RNG_MAX_INTERVAL`, EKF/common.h:205 -/
def RF.isSampleOutOfDate (s : RF K) (now : UInt64) : Bool := decide (now - s.sample.timeUs > 2 * 200000)

/-- `isDataContinuous`, EKF/sensor_range_finder.hpp:110 -/
def RF.isDataContinuous (s : RF K) : Bool := decide (s.dtLpf < 2000000)

/-- `isTiltOk`, EKF/sensor_range_finder.hpp:111 -/
def RF.isTiltOk (s : RF K) : Bool := decide (s.cosTilt > s.cosMaxTilt)

/-- `isDataInRange`, EKF/sensor_range_finder.cpp:110-113 -/
def RF.isDataInRange (s : RF K) : Bool := decide (s.sample.rng ≥ s.minVal) && decide (s.sample.rng ≤ s.maxVal)

/-- `updateStuckCheck`, EKF/sensor_range_finder.cpp:115-139 -/
def RF.updateStuckCheck (s : RF K) : RF K :=
  if s.sample.timeUs - s.timeLastValid > 10000000 then
    if s.stuckMax - s.stuckMin > stuckThreshold then
      { s with stuckMin := 0, stuckMax := 0, stuck := false }
    else
      { s with
        stuckMax := if s.sample.rng > s.stuckMax then s.sample.rng else s.stuckMax
        stuckMin := if s.stuckMin < 1 / 10 ∨ s.sample.rng < s.stuckMin then s.sample.rng else s.stuckMin
        stuck := true }
  else s

/-- body of `updateValidity` for a ready sample, EKF/sensor_range_finder.cpp:75-91 -/
def RF.checkReady (s : RF K) (now : UInt64) : RF K :=
  if s.sample.quality = 0 then { s with valid := false, timeBadQuality := now }
  else if now - s.timeBadQuality > s.qualityHyst then
    if s.isTiltOk && s.isDataInRange then
      if !s.updateStuckCheck.stuck then
        { s.updateStuckCheck with valid := true, timeLastValid := s.sample.timeUs }
      else { s.updateStuckCheck with valid := false }
    else { s with valid := false }
  else { s with valid := false }

/-- `updateValidity`, EKF/sensor_range_finder.cpp:61-93 -/
def RF.updateValidity (s0 : RF K) (now : UInt64) : RF K :=
  let s := s0.updateDtDataLpf now
  if s.isSampleOutOfDate now || !s.isDataContinuous then
    { s with valid := false, regular := false }
  else if s.ready then { s with regular := true }.checkReady now
  else { s with regular := true }

/-- `runChecks`, EKF/sensor_range_finder.cpp:48-52 -/
def RF.runChecks (s : RF K) (now : UInt64) (R20 R22 : K) : RF K :=
  (s.updateSensorToEarthRotation R20 R22).updateValidity now

/-- one cycle of the controller (EKF/control.cpp:125-133): deliver what the buffer returned, then run the
checks at the delayed time with the current attitude -/
structure Cycle (K : Type*) where
  now : UInt64
  popped : Option (RangeSample K)
  R20 : K
  R22 : K

def RF.cycle (s : RF K) (c : Cycle K) : RF K := (s.deliver c.popped).runChecks c.now c.R20 c.R22

def RF.cycles (s : RF K) (cs : List (Cycle K)) : RF K := cs.foldl RF.cycle s

/-- `getDistBottom`, EKF/sensor_range_finder.hpp:96 -/
def RF.getDistBottom (s : RF K) : K := s.sample.rng * s.cosTilt

/-- `setPitchOffset`, EKF/sensor_range_finder.hpp:71-78 (over ℝ; `FLT_EPSILON` is `2^-23`) -/
noncomputable def RF.setPitchOffset (s : RF ℝ) (p : ℝ) : RF ℝ :=
  if |s.pitchOffset - p| > 1 / 2 ^ 23 then
    { s with sinPitch := Real.sin p, cosPitch := Real.cos p, pitchOffset := p }
  else s

end Ecl.RangeFinder
