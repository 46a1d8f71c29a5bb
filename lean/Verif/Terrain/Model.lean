import Verif.Fusion.Flow
import Verif.Basic.Time

/-!
# Terrain estimator — EKF/terrain_estimator.cpp

Exact real arithmetic. `fmaxf` is `max`. The main filter state is the 24-vector `s` of the fusion models (velocity 4-6, down position 9);
the optical flow inputs and helper functions are those of the flow fusion model (`Verif/Fusion/Flow.lean`): the same expressions appear in
EKF/terrain_estimator.cpp:176-200 and EKF/optflow_fusion.cpp.
-/

namespace Ecl.Terrain

open Fusion Cov

noncomputable section

/-- what the terrain estimator reads: parameters, flags, main filter, sensors -/
structure In where
  /-- `_time_last_imu` -/
  now : UInt64
  inAir : Bool
  /-- main filter state -/
  s : Vec ℝ
  /-- `P(9,9)` -/
  p99 : ℝ
  /-- `_imu_sample_delayed.delta_vel_dt` -/
  dt : ℝ
  /-- optical flow sample and parameters; `flow.gndClearance` is `_params.rng_gnd_clearance`, `flow.gate` is `flow_innov_gate` -/
  flow : FlowIn
  rngNoise : ℝ
  rngNoiseScaler : ℝ
  rngGate : ℝ
  vehVarScaler : ℝ
  pNoise : ℝ
  gradient : ℝ
  /-- `shouldUseRangeFinderForHagl()`, EKF/ekf.h:656 -/
  useRange : Bool
  /-- `shouldUseOpticalFlowForHagl()`, EKF/ekf.h:657 -/
  useFlow : Bool
  /-- `_range_sensor.isDataHealthy()` -/
  rngHealthy : Bool
  /-- `_range_sensor.getDistBottom()` -/
  distBottom : ℝ
  /-- `_range_sensor.getRange()` -/
  range : ℝ

/-- state of the terrain estimator, EKF/ekf.h:445-447,511-517 -/
structure St where
  vpos : ℝ
  var : ℝ
  /-- `_time_last_hagl_fuse`, `_time_last_fake_hagl_fuse`, `_time_last_flow_terrain_fuse` -/
  tHagl : UInt64
  tFake : UInt64
  tFlow : UInt64
  init : Bool
  /-- `_hagl_valid` -/
  valid : Bool
  /-- `_hagl_sensor_status` -/
  sensRange : Bool
  sensFlow : Bool
  /-- `reject_hagl` -/
  reject : Bool
  innov : ℝ
  innovVar : ℝ
  testRatio : ℝ
  flowInnov : Fin 2 → ℝ
  flowInnovVar : Fin 2 → ℝ
  /-- `_flow_for_terrain_data_ready` -/
  flowReady : Bool
  /-- `_last_on_ground_posD` -/
  gndPosD : ℝ

/-- `initHagl`, EKF/terrain_estimator.cpp:46-84 -/
def initHagl (x : In) (st : St) : St × Bool :=
  let r : St × Bool :=
    if !x.inAir then
      ({ st with vpos := x.s 9 + x.flow.gndClearance, var := sq x.flow.gndClearance, tFake := x.now }, true)
    else if x.useRange && x.rngHealthy then
      ({ st with vpos := x.s 9 + x.distBottom, var := sq x.rngNoise }, true)
    else if x.useFlow && st.flowReady then
      ({ st with vpos := max 0 (x.s 9), var := 100 }, true)
    else (st, false)
  if r.2 then ({ r.1 with tHagl := x.now }, true) else r

/-- variance growth, EKF/terrain_estimator.cpp:101-112 -/
def predict (x : In) (st : St) : St :=
  let v := st.var + sq (x.dt * x.pNoise)
  let v := v + sq (x.dt * x.gradient) * (sq (x.s 4) + sq (x.s 5))
  { st with var := constrain v 0 10000 }

/-- observation variance, EKF/terrain_estimator.cpp:146-148 -/
def obsVar (x : In) : ℝ := max (x.p99 * x.vehVarScaler) 0 + sq x.rngNoise + sq (x.rngNoiseScaler * x.range)

/-- `fuseHagl`, EKF/terrain_estimator.cpp:134-180 -/
def fuseHagl (x : In) (st : St) : St :=
  let innov := (st.vpos - x.s 9) - x.distBottom
  let S := max (st.var + obsVar x) (obsVar x)
  let ratio := sq innov / (sq (max x.rngGate 1) * S)
  let st := { st with innov := innov, innovVar := S, testRatio := ratio }
  if ratio ≤ 1 then
    let gain := st.var / S
    { st with vpos := st.vpos - gain * innov, var := max (st.var * (1 - gain)) 0, tHagl := x.now, reject := false }
  else if isTimedOut x.now st.tHagl 10000000 then { st with vpos := x.s 9 + x.distBottom, var := obsVar x }
  else { st with reject := true }

/-- one axis of `fuseFlowForTerrain`, EKF/terrain_estimator.cpp:225-252 and 255-280: `h` observation derivative, `pred` predicted rate -/
def flowAxis (x : In) (a : Fin 2) (h pred : ℝ) (st : St) : St :=
  let S := h * h * st.var + flowMeasVar x.flow
  let k := st.var * h / S
  let innov := pred - flowRate x.flow a
  let khp := k * h * st.var
  let st := { st with flowInnov := set2 st.flowInnov a innov, flowInnovVar := set2 st.flowInnovVar a S }
  if sq innov / (sq (max x.flow.gate 1) * S) ≤ 1 then
    { st with vpos := st.vpos + k * innov, var := max (st.var - khp) 0, tFlow := x.now }
  else st

/-- `fuseFlowForTerrain`, EKF/terrain_estimator.cpp:182-281 -/
def fuseFlow (x : In) (st : St) : St :=
  let vb := flowVelBody x.flow x.s
  let t0 := x.s 0 * x.s 0 - x.s 1 * x.s 1 - x.s 2 * x.s 2 + x.s 3 * x.s 3
  let e22 := Utils.quatToInverseRotMat (attQuat x.s) 2 2
  let st := { st with vpos := max st.vpos (x.flow.gndClearance + x.s 9) }
  let inv := 1 / (st.vpos - x.s 9)
  let st := { st with var := max st.var 0 }
  let st := flowAxis x 0 (vb 1 * t0 * inv * inv) (vb 1 * e22 * inv) st
  flowAxis x 1 (-vb 0 * t0 * inv * inv) (-vb 0 * e22 * inv) st

/-- range finder part, EKF/terrain_estimator.cpp:114-118 -/
def stepRange (x : In) (st : St) : St := if x.useRange && x.rngHealthy then fuseHagl x st else st

/-- optical flow part, EKF/terrain_estimator.cpp:120-124 -/
def stepFlow (x : In) (st : St) : St := if x.useFlow && st.flowReady then { fuseFlow x st with flowReady := false } else st

/-- minimum clearance, EKF/terrain_estimator.cpp:126-129 -/
def stepClear (x : In) (st : St) : St :=
  if st.vpos - x.s 9 < x.flow.gndClearance then { st with vpos := x.flow.gndClearance + x.s 9 } else st

/-- `updateTerrainValidity`, EKF/terrain_estimator.cpp:283-300 -/
def updateValidity (x : In) (st : St) : St :=
  let r := isRecent x.now st.tHagl 5000000
  let f := isRecent x.now st.tFlow 5000000
  { st with
    valid := st.init && (r || f)
    sensRange := x.useRange && r && decide (st.tFake ≠ st.tHagl)
    sensFlow := x.useFlow && f }

/-- `runTerrainEstimator`, EKF/terrain_estimator.cpp:86-132 -/
def run (x : In) (st : St) : St :=
  let st := if !x.inAir then { st with gndPosD := x.s 9 } else st
  let st :=
    if !st.init || !x.inAir then
      let r := initHagl x st
      { r.1 with init := r.2 }
    else stepClear x (stepFlow x (stepRange x (predict x st)))
  updateValidity x st

/-- decision to use a flow sample for the terrain, EKF/control.cpp:150-158 -/
def flowReadiness (now : UInt64) (flowDataReady inAir optFlow gps : Bool) (st : St) : St :=
  if !st.flowReady && flowDataReady && inAir then
    { st with flowReady := isTimedOut now st.tHagl 5000000 && (!optFlow && gps) }
  else st

/-- `getTerrainVPos`, EKF/ekf.h:794 -/
def terrainVPos (st : St) : ℝ := if st.valid then st.vpos else st.gndPosD

end

end Ecl.Terrain
