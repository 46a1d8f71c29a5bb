# PX4/ecl in Lean 4 — design

## 1. Approach
* The code of `/repo` is modelled function by function as total Lean functions in `lean/Verif/<Area>/`; every definition cites the file
  and lines it models and states its simplifications. Properties (`properties.jsonl`) are theorems over those functions; a small
  specification (`Spec.*` definitions) states the intended meaning without using the model's helpers.
* Properties that must hold for every history are proved by induction over lists of operations of unbounded length, with inductive
  invariants or refinement to an abstract object. Numerical properties are proved for all real (or ordered field) inputs. Generated
  equations are compared with matrix specifications and derivatives (`HasDerivAt`).
* A property that the code does not satisfy is recorded as such: a theorem proves the negation (a witness, or a statement for every
  state meeting stated hypotheses) next to the part that does hold. Section 5 lists these findings.
* Each theorem has an `example` with a concrete non-trivial case of its hypotheses in the same file.
* Theorems were tested against mutated models (`seeded/LOG.jsonl`, scripts `tools/mutate.py`, `tools/mutlog.py`).

## 2. Trusted base
* Lean 4.33.0 kernel. Axioms used by the theorems: only `propext`, `Classical.choice`, `Quot.sound` (Mathlib's standard set). No axiom is
  declared, no proof is left open, no compiled-code evaluation is used (`decide +kernel` is evaluated by the kernel).
* The reading of the C++ text into the model: by hand, or by the scripts in `tools/` for the generated equations (`cgen.py`,
  `gen_cov.py`, `gen_fusion.py`, `gen_magiv.py`, `gen_tables.py`); `gen_aid_frame.py` only generates frame lemmas, which the kernel checks.
* Arithmetic: C `float`/`double` computations are read as exact real arithmetic, except where rounding or special values are the subject:
  `Basic/F32` (round to nearest even, 24 bits) for C15, NaN as a separate value in `Fusion/VelPosNaN` (C36), `Fusion/FlowAdmit` (C121) and
  `Control/VertAccel` (C118), and the modules `Fp/` (rounding of every operation, infinities and NaN: covariance conditioning C141, attitude C142). Float literals are read as the decimal they print. Overflow, infinities and rounding elsewhere are not modelled.
  64-bit time stamps are `UInt64` with wrap-around; 8-, 16- and 32-bit counters wrap where the code relies on it.
* The external `matrix` library (not in /repo): vector and matrix algebra as in mathematics; `uncorrelateCovarianceSetVariance` zeroes rows and
  columns and sets the diagonal; `makeRowColSymmetric` averages mirrored entries; constructors zero-initialise; `longerThan(v)` compares
  squared norms; quaternion ↔ rotation matrix conversion (Shepperd) is modelled and proved in `Ekf/QuatLib`; axis–angle conversion in
  `ImuDownSampler`.
* C++ level: no concurrency in the code base; memory safety is modelled where indices are computed (ring buffer, tables), object lifetime is not.

## 3. What is modelled and what is not
Modelled (by area): `RingBuffer.h`; `AlphaFilter.hpp`; `imu_down_sampler`; `sensor_range_finder`; `estimator_interface.{cpp,h}` (ports,
down-sampling, sizes, time shifts, vibration, at-rest, drag, aiding counts); `utils.cpp`, `mathlib.h`; `ekf.cpp` (initialisation, `update`/`reset` call histories, prediction, tilt
alignment, output predictor, vertical output); `ekf_helper.cpp` (resets, alignment, limits, status words, accuracies, Kahan, yaw resets, dead
reckoning, emergency yaw reset, covariance helpers); `covariance.cpp` (all); `mag_fusion.cpp`, `airspeed_fusion.cpp`, `sideslip_fusion.cpp`,
`drag_fusion.cpp`, `optflow_fusion.cpp`, `gps_yaw_fusion.cpp`, `vel_pos_fusion.cpp` (all); `control.cpp`, `mag_control.cpp` (all fusion
mode control: height, magnetometer, GPS, vision, flow, airspeed, sideslip, drag, synthetic, auxiliary velocity, vertical accelerometer fault);
`gps_checks.cpp`; `terrain_estimator.cpp`; `EKFGSF_yaw.cpp`; `airdata/WindEstimator`; `geo/geo.cpp`; `geo_lookup`.

Not modelled: console output; trivial getters that copy one member; the derivation scripts and comparison programs under `EKF/python`
(not part of the library); the tests; the dynamic memory allocator (allocation success is an input); float rounding as said above.
The control code is modelled in several views (flags and timers in `Aid`, height in `Control`, numerical effect in `Meas`, `Fusion`, `Yaw`):
each view takes the quantities computed by the others as inputs. `Whole` composes every function that writes the state vector or the covariance into one
transition system with any order of calls and any arguments (C137, C138); the control logic is not composed with it (its orders of calls are a subset).

## 4. Plan per property

Statements are in `properties.jsonl`. For each property: modules with the theorems; what is modelled and how it is proved; theorem names.

* **C01 Ring buffer behaves as a bounded FIFO of the most recent samples** (proved; `RingBuffer/Props`). Whole class modelled on index arithmetic; forward simulation to an abstract bounded queue, by induction over operation lists. Note: Refinement to an abstract queue for every operation history. Theorems: `ringbuffer_refines_queue`, `ringbuffer_accessors`, `ringbuffer_allocate`, `spec_length_le`.
* **C02 pop_first_older_than returns the newest eligible sample and discards exactly it and everything older** (proved; `RingBuffer/Props`). Loop invariant of the backward search; delivered-at-most-once by induction over histories. Note: For query times of at least 100 ms; see C03 for the rest. Theorems: `pop_delivers_newest_eligible`, `delivered_at_most_once`.
* **C03 Query times below 100 ms re-deliver consumed slots** (proved; `RingBuffer/Props`). Concrete operation histories evaluated in the kernel as refutations of the unrestricted contract. Note: Negation witnesses of the unrestricted contract. Theorems: `early_query_redelivers`, `early_query_invents_sample`, `constructor_256_unusable`, `constructor_truncates`, `unallocated_buffer`.
* **C04 AlphaFilter output stays inside the hull of its inputs and follows the first-order closed form** (proved; `AlphaFilter/Props`). Fold over the input list; closed form, hull and limit by induction. Note: Exact real/field arithmetic; float rounding not modelled. Theorems: `updates_closed_form`, `updates_const_error`, `updates_in_hull`, `updates_const_tendsto`, `unconfigured_ignores_samples`.
* **C05 AlphaFilter::setParameters yields a weight in [0,1] or leaves the filter unchanged** (proved; `AlphaFilter/Props`). Case analysis of the two guards, weight in [0,1] over any linear ordered field. Theorems: `setParameters_spec`, `setParameters_no_div_zero`.
* **C06 IMU down-sampler loses no time, no rotation and no clipping flag** (proved; `ImuDownSampler/Props`). Rotation accumulation as products in the unit quaternions; invariant "accumulated + emitted = input" over input lists. Theorems: `run_loses_nothing`, `run_time_conserved`, `emitted_rotation`, `matrixLib_exp_log`.
* **C07 IMU down-sampler output interval is bounded** (proved; `ImuDownSampler/Props`). Invariant on the accumulated time of the down-sampler over input lists. Theorems: `run_output_interval`, `first_emission`.
* **C08 A range finder sample is declared healthy only if every documented check passes** (proved; `RangeFinder/Props`, `RangeFinder/Props2`). Complete state machine of the sensor; iff characterisation of the health flag at every step. Theorems: `healthy_iff_all_checks`, `healthy_refreshes`, `bad_quality_blocks`, `future_sample_rejected`, `handed_sample_is_checked`, `not_ready_not_healthy`, `fresh_reports_nothing`, `unconfigured_only_zero`, `unconfigured_looks_up`.
* **C09 Range finder stuck detection** (proved; `RangeFinder/Props`). Inductive invariant of the stuck detector (min, max, flag). Theorems: `stuck_never_healthy`, `spread_releases`, `first_sample_withheld`.
* **C10 Range finder data-interval filter stays bounded** (proved; `RangeFinder/Props`). Invariant of the interval low pass. Theorems: `regular_iff`, `lpf_bounded`.
* **C11 Sensor data rate limiting** (proved; `Interface/Props`). Ports as queue + thinning; refinement and gap theorem by induction over pushes. Note: Time shift itself is C15. Theorems: `port_refines_thinned_queue`, `thin_pushes_accepted`, `accepted_sublist`, `accepted_gap`, `port_ignores`.
* **C12 Magnetometer and barometer down-sampling averages every sample exactly once** (proved; `Interface/Props`). Partition of the pushed list into groups; mean of every group; 8-bit counter refutation. Note: Includes the negative part (256 samples). Theorems: `averager_means`, `groups_partition`, `averager_256_divides_by_zero`, `averager_long_group_wrong`.
* **C13 Buffer sizing from the configured delays** (proved; `Interface/Props`). Float ceil modelled by integer ceiling on rationals; maximum characterised by `IsGreatest`-style statement. Theorems: `maxDelay_isMax`, `bufferLengths_spec`, `bufferLengths_defined_iff`, `gps_delay_ignored_without_mask`.
* **C14 Minimum observation interval never divides by zero** (proved; `Interface/Props`). Definedness of the division; witness configuration. Note: The unrestricted claim is refuted by a witness configuration. Theorems: `minObsInterval_defined_iff`, `minObsInterval_divides_by_zero`, `minObsInterval_empty`.
* **C15 Observation time stamps are shifted back by delay plus half a filter period** (proved; `Interface/Props`). IEEE-754 single rounding modelled (24-bit round to nearest even); error bound and unboundedness witness. Note: Delays restricted to whole microseconds representable as float. Theorems: `shift_error_le_ulp`, `shift_exact_small`, `shift_error_unbounded`, `shift_undefined_early`.
* **C16 Vehicle-at-rest detection** (proved; `Interface/Props2`). Iff over all sample histories. Theorems: `atRest_iff`.
* **C17 Horizontal aiding source counting** (proved; `Interface/Props2`). Counting over the flags, exhaustive in the Booleans but stated for every state. Theorems: `aiding_active_iff`, `only_source_iff`.
* **C18 Average IMU interval and filter interval stay physical** (proved; `Interface/Props2`). Invariants of two recursive averages. Theorems: `imuAvg_bounds`, `imuAvg_stays`, `imuAvgStep_value`, `ekfAvg_bounds`, `ekfAvgStep_value`.
* **C19 At most one height source is active** (proved; `Control/HeightProps`). Whole height control and timeout code; invariant over all operation lists. Note: EKF/control.cpp height control and timeouts modelled completely. Theorems: `at_most_one_source`, `exactly_one_source`, `init_one`.
* **C20 Losing GPS can leave the filter without any height source** (proved; `Control/HeightProps`). Invariant "no source" over all continuations without a range/vision opportunity. Note: finding: the state without height source is permanent. Theorems: `gps_height_trap`, `stop_gps_no_source`, `trap_reachable`, `trap_exit`.
* **C21 State resets are reported exactly and shift the output predictor consistently** (proved; `Ekf/ResetProps`). Reset functions on the whole estimator (state, output, buffers, counters); exact shift relation. Note: vertNew_shift_iff: the current alternative vertical position is the one quantity not shifted. Theorems: `resetHorizontalVelocityTo_spec`, `resetVerticalVelocityTo_spec`, `resetHorizontalPositionTo_spec`, `resetVerticalPositionTo_spec`, `counters_count`, `published_jump`, `vertNew_shift_iff`.
* **C22 Output predictor tracking error is invariant under resets** (proved; `Ekf/ResetProps`). Relation "output buffer − state" invariant under every reset. Theorems: `tracking_error_invariant`.
* **C23 State limits after prediction and fusion** (proved; `Ekf/PredictProps`). Componentwise clamps; nearest point. Theorems: `constrainStates_within`, `constrainStates_id`, `constrainStates_nearest`.
* **C24 A healthy scalar fusion keeps the covariance symmetric, positive semi-definite and never increases a variance** (proved; `Cov/Props`). Quadratic form algebra with Cauchy–Schwarz for positive semi-definite forms. Theorems: `kalman_update_valid`, `optimal_gain_accepted`, `optimal_update_valid`.
* **C25 Covariance health check** (proved; `Cov/Props`). Case analysis of the health check on all 24 variances. Theorems: `checkAndFix_spec`, `measurementUpdate_spec`.
* **C26 Covariance limits** (proved; `Cov/Props`). Entry-wise characterisation of `fixCovarianceErrors`. Theorems: `fix_variance_limits`, `fix_accel_variance`, `accel_floor_exceeds_cap`, `fix_keeps_symmetry`, `fix_unused_zero`, `fix_forces_symmetry`.
* **C27 Covariance prediction is F P F^T + G Q G^T** (proved; `Cov/PredictProps3`, `Cov/PredictProps`). All generated expressions transcribed by script; each of the 300 entries proved equal to F P Fᵀ + G Q Gᵀ; F and G proved to be derivatives. Note: Exact arithmetic; all 300 generated entries; Jacobians proved to be derivatives of the propagation model of the derivation script. Theorems: `covariance_prediction`, `accumulators_zero`, `matF_jacobian`, `matG_jacobian`.
* **C28 Magnetometer fusion uses the exact Jacobian, innovation variance and Kalman gain** (proved; `Fusion/Mag`). Generated equations transcribed; Jacobian by `HasDerivAt`, gain and variance as matrix identities; whole fusion function. Note: Whole function for a positive noise parameter (with zero noise the variance may be zero and is divided by). Theorems: `mag_fusion`, `mag_gradient`, `mag_field_only`.
* **C29 Airspeed fusion uses the exact Jacobian, innovation variance and gain** (proved; `Fusion/Airspeed`). As C28. Note: Whole function incl. resets and flags. Theorems: `airspeed_fusion`, `airspeed_gradient`, `airspeedVar_range`, `airspeed_always_fused`, `airspeed_wind_only`.
* **C30 Sideslip fusion uses the exact Jacobian, innovation variance and gain** (proved; `Fusion/Sideslip`). As C28; witness for zero forward speed. Note: Includes the negative part: the 7 m/s gate does not exclude zero forward speed. Theorems: `sideslip_fusion`, `sideslip_gradient`, `sideslip_always_fused`, `sideslip_gate_admits_zero_forward`.
* **C31 Optical flow fusion uses the exact Jacobian, innovation variance and gain** (proved; `Fusion/Flow`). As C28; the gain of the second axis refuted. Note: Negative part in the statement: mixed gain of the second axis. Theorems: `flow_fusion`, `flowX_gradient`, `flowY_gradient`.
* **C32 Drag fusion corrects only the wind states with the exact gain** (proved; `Fusion/Drag`). As C28. Note: The Y axis innovation uses the relative wind of the state before the X axis was fused (stated in drag_fusion). Theorems: `drag_fusion`, `dragX_gradient`, `dragY_gradient`, `drag_wind_only`.
* **C33 Yaw fusion Jacobians** (proved; `Fusion/GpsYaw`, `Fusion/Yaw`, `Fusion/YawProps`). As C28 for four yaw sequences; blind sector theorem. Note: Gradient off the branch cut (heading exactly south). Findings: GPS yaw ignored when the antenna baseline is within 1e-3 of east/west (gpsYaw_blind_east); of two usable yaw paths the code picks the worse-conditioned one (yaw_path_choice). Theorems: `gpsYaw_gradient`, `gpsYaw_fusion`, `gpsYaw_blind_east`, `yawGrad_gradient`, `yaw_fusion`, `yaw_selected_observable`, `yaw_path_choice`.
* **C34 Declination fusion and limiting** (proved; `Fusion/Declination`). As C28 plus the declination limiter. Note: Negative part: neither the innovation nor the limiter wraps angles, so references near 180 degrees are mishandled. Theorems: `declination_fusion`, `declination_gradient`, `declination_aligned`, `limitDeclination_spec`, `limitDeclination_no_wrap`, `declination_innovation_no_wrap`, `magDeclination_spec`.
* **C35 Rejected observations change nothing** (proved; `Fusion/VelPos`). Gate predicates and frame conditions for all horizontal/vertical velocity/position fusions. Note: exact gates and effects, exact reals; innovations beyond 100 standard deviations under an inhibited gate are ignored without setting the rejection flag; both axes use innovations and variances computed before the first axis was fused. Theorems: `hvel_gate`, `hpos_gate`, `vvel_gate`, `vpos_gate`, `direct_observation_residual`.
* **C36 A NaN innovation in one horizontal axis is not fused** (proved; `Fusion/VelPosNaN`). Numbers extended by NaN with C comparison semantics. Note: refuted for one NaN axis (fmaxf) and for inhibited gates; NaN as a separate value, infinities not modelled. Theorems: `both_nan`, `one_nan_fused`, `inhibited_gate_fuses_nan`, `nan_fusion_destroys_state`, `vertical_nan`, `hvelFused_finite`, `hposFused_finite`, `vertical_finite`.
* **C37 GPS quality gate needs 10 s of uninterrupted good data** (proved; `Gps/ChecksProps`). Ten checks as a Boolean vector, time invariant over message lists. Note: all ten checks of EKF/gps_checks.cpp modelled; exact arithmetic, geo projection abstract. Theorems: `gps_good_iff`, `check_flags`, `fail_immediate`, `gps_good_now`.
* **C38 The local origin is set at most once by GPS** (proved; `Gps/Origin`, `Gps/OriginMore`). Invariant over message/command lists. Theorems: `origin_never_moves`, `origin_set_iff`, `origin_values`, `origin_history`, `collected_iff`.
* **C39 Rotation utilities produce proper rotations** (proved; `Utils/Props`). Matrix identities; orthogonality and determinant. Theorems: `taitBryan312_isRotation`, `taitBryan312_factors`, `quatToInverseRotMat_spec`, `yaw_extractors_agree`, `selected_sequence_regular`, `updateYaw_spec`.
* **C40 Kahan summation is exact in exact arithmetic and compensates** (proved; `Utils/Props`). Exact arithmetic algebra of the compensation term. Theorems: `kahan_exact`, `kahan_compensates`, `kahanRun_exact`.
* **C41 Local projection round trip** (proved; `Geo/Props`). Real analysis of the azimuthal equidistant projection on the sphere. Note: Exact spherical geometry over the reals. Theorems: `project_spec`, `reproject_spec`, `project_reproject`, `reproject_project`, `project_self`.
* **C42 Projection refuses uninitialised references** (proved; `Geo/Props`). Case analysis on the initialised flag. Theorems: `projection_needs_init`, `projection_init`.
* **C43 Great-circle distance is a metric-like quantity** (proved; `Geo/Props`). Haversine as chord; symmetry, zero iff same point, upper bound. Theorems: `distance_eq`, `distance_metric`, `projected_distance`.
* **C44 waypoint_from_heading_and_distance places the point at the requested distance and bearing** (proved; `Geo/Props`). Spherical trigonometry. Theorems: `bearing_spec`, `waypoint_spec`, `waypoint_distance`, `waypointFromLine_spec`.
* **C45 Small-offset vector helpers are inverse to each other** (proved; `Geo/Props`). Algebra over ℝ. Theorems: `fast_inverse`, `fast_inverse'`.
* **C46 Geomagnetic table lookup never leaves the tables** (proved; `GeoLookup/Props`). Interval arithmetic on the index computation, all inputs. Note: Longitudes beyond +-540 degrees are clamped to the date line rather than reduced (theorem). Theorems: `lookup_total`, `lookup_out_of_range`, `lookup_values`.
* **C47 Geomagnetic lookup is exact at grid nodes and continuous** (proved; `GeoLookup/Props`). Bilinear interpolation; node exactness, continuity across cells; counterexample at the date line of angles. Note: Exact and continuous as numbers; because declination is interpolated as a number the result near the magnetic pole is wrong as an angle (counterexample theorem). Theorems: `lookup_bilinear`, `lookup_node`, `lookup_date_line`, `declination_wrap_error`.
* **C48 Terrain estimator keeps a plausible terrain state** (proved; `Terrain/Props`, `Terrain/Run`). State machine of the terrain estimator over all steps. Note: Finding: the reset after 10 s of rejections does not restart the timer, so it repeats with every further rejected sample. Theorems: `prediction_grows`, `fuseHagl_spec`, `run_ground`, `run_init`, `run_air`, `var_history`, `reset_repeats`.
* **C49 Terrain validity window** (proved; `Terrain/Run`). History invariant for validity. Note: The literal claim needs on-ground resets and initialisations to count as information: findings show validity without any sensor for 5 s after take-off, and flow initialisation reported as range finder data. Theorems: `validity_spec`, `valid_history`, `valid_without_sensor`, `flow_init_claims_range`.
* **C50 Wind estimator covariance stays symmetric with non-negative, limited variances** (proved; `Wind/Run`). Invariants over all operation lists of the wind estimator. Note: The caps hold right after accepted measurements only (limits_not_always); capping can destroy positive semi-definiteness (limit_breaks_covariance). Theorems: `always_valid`, `limits_after_fusion`, `limits_not_always`, `limit_breaks_covariance`.
* **C51 Wind estimator timing gates** (proved; `Wind/Run`, `Wind/Reject`). Exact gates; histories. Note: time_backwards: a stamp going back passes the unsigned gate. Theorems: `prediction_at_most_1Hz`, `airspeed_at_most_10Hz`, `sideslip_at_most_10Hz`, `restart_by_airspeed`, `restart_by_sideslip`, `reset_cleared`, `update_cases`, `time_backwards`.
* **C52 Yaw estimator weights form a probability distribution** (proved; `Gsf/Run`, `Gsf/Update`). Weights invariant by induction over updates. Theorems: `weights_distribution`, `published`, `bayes`, `bayes_clipped`, `collapse`, `availability`, `start_variance`, `density_spec`.
* **C53 Yaw estimator covariance propagation and update are the exact EKF equations** (proved; `Gsf/Props`, `Gsf/Update`, `Gsf/Run`). Generated 3-state equations transcribed; Jacobians by derivatives; PSD invariant. Note: P is symmetric in every reachable state (covariance_valid). Theorems: `transition_jacobian`, `predictP_eq`, `prediction`, `updGen_eq`, `update_spec`, `yawRot_spec`, `covariance_valid`.
* **C54 Yaw estimator gains and biases are bounded** (proved; `Gsf/Ahrs`, `Gsf/Run`). Clamps as invariants. Note: the bias limit holds when the main filter's bias is within the limit; bias_copied_unlimited is the counterexample otherwise. Theorems: `accelGain_range`, `newBias_range`, `newBias_step`, `bias_bounded`, `bias_copied_unlimited`, `covariance_valid`.
* **C55 Magnetometer fusion modes are mutually exclusive** (proved; `Aid/MagProps`, `Aid/MagMore`). Control step modelled over all flags; invariant over histories (frame lemmas generated). Note: histories of the whole aiding control step; the last three are findings. Theorems: `modes_exclusive`, `disabled_never_used`, `fault_permanent`, `fault_never_used`, `mode_selected`, `check3D_spec`, `disturbed_3D_fused`, `declination_flag_left`, `switched_to_none`.
* **C56 Fault and solution status words** (proved; `Status/Words`). Bit-vector layout of the unions. Note: includes the refutations; bit field layout LSB first, little endian. Theorems: `fault_word`, `last_flags_invisible`, `soln_bits`, `soln_upper_bits`.
* **C57 Dead-reckoning status** (proved; `Status/DeadReckoning`). History predicate. Note: all histories; times below 2^62; finding dr_zero_marker. Theorems: `dr_flags`, `dr_exclusive`, `dr_exceeded_initially`, `dr_history`, `dr_aided_valid`, `dr_zero_marker`, `dr_fresh`.
* **C58 Timeout predicates** (proved; `Basic/Time`). 64-bit wrap-around arithmetic. Theorems: `timeout_meaning`, `timeout_exclusive`, `timeout_wraps`.
* **C59 Emergency yaw reset limits** (proved; `Aid/GsfReset`). Histories of control steps with the counter. Note: last three are refutations of the unrestricted claim. Theorems: `resets_limited`, `reset_conditions`, `resets_spaced`, `uncounted_unlimited`, `limit_above_255_ignored`, `origin_breaks_spacing`.
* **C60 Increase of yaw variance keeps a valid covariance** (proved; `Cov/BookkeepProps`). Rank-one update along the yaw direction. Theorems: `yaw_variance_increase`, `yaw_variance_increase_valid`, `yawDir_is_derivative`.
* **C61 Integer power helper computes the power** (proved; `Utils/Props`). Induction on the exponent. Theorems: `powf_eq_zpow`.
* **C62 Range finder boresight projection** (proved; `RangeFinder/Props`, `RangeFinder/Props2`). Trigonometry of the boresight. Theorems: `boresight_down_component`, `distBottom_is_vertical_component`, `first_pitch_offset`.
* **C63 Bias variance outputs are the variances of the bias outputs** (proved; `Interface/Props2`). Algebra; refutation of the unit. Note: Refutation. Theorems: `biasVar_is_not_variance`, `biasOut_spec`.
* **C64 Drag data down-sampling** (proved; `Interface/Props2`). Group partition as C12. Theorems: `drag_groups`.
* **C65 Vibration metrics** (proved; `Interface/Props2`). Fold of a first-order filter. Theorems: `vibe_is_lowpass`, `vibe_bounded`.
* **C66 A yaw reset changes the yaw only and is reported exactly** (proved; `Ekf/ResetProps`, `Ekf/QuatLib`). Quaternion algebra; external library conversions modelled in `Ekf/QuatLib`. Note: The conversions of the external vector library are hypotheses (QuatLib) of the reset theorem; quatLib proves them for the library algorithm as modelled (not part of /repo). Theorems: `resetQuatStateYaw_spec`, `quatOfDcm_spec`, `quatLib`.
* **C67 Output filter alignment puts the delayed output on the EKF state** (proved; `Ekf/ResetProps`). Buffer maps. Theorems: `alignOutputFilter_spec`.
* **C68 Strap-down prediction** (proved; `Ekf/PredictProps`). Kinematic equations; exactness for constant acceleration. Note: Axis-angle conversion is a library parameter. Theorems: `predict_attitude`, `predict_kinematics`, `predict_others`, `constant_acceleration_exact`, `earthRate_spec`.
* **C69 Initial tilt alignment** (proved; `Ekf/PredictProps`). Trigonometry of the accelerometer tilt. Theorems: `initialiseTilt_spec`.
* **C70 Output predictor** (proved; `Ekf/OutputProps`). Complementary filter steps. Theorems: `output_ins`, `output_correct`, `trackGain_range`, `attCorrection_spec`.
* **C71 Alternative vertical output** (proved; `Ekf/OutputProps`). Loop invariant over the vertical buffer. Theorems: `applyVert_spec`, `applyVert_single_slot`.
* **C72 Inhibited bias axes can break covariance validity** (proved; `Cov/Props2`). Concrete matrix witness. Note: negative property. Theorems: `inhibited_axis_can_invalidate`.
* **C73 Variance capping can break covariance validity** (proved; `Cov/Props2`). Concrete matrix witness. Note: negative property. Theorems: `limiter_can_invalidate`.
* **C74 Attitude covariance from rotation-vector uncertainty** (proved; `Cov/QuatCov`). Jacobian sandwich; derivative of the quaternion exponential map. Theorems: `quatJac_is_derivative`, `rotVec_spec`, `quatBlock_eq`, `initQuatCov_spec`, `initQuatCov_valid`, `resetQuatCov_spec`.
* **C75 Wind covariance reset** (proved; `Cov/BookkeepProps`, `Fusion/WindReset`). Matrix algebra of the reset. Theorems: `resetWind_with_airspeed`, `resetWind_without_airspeed`, `resetWind_units`, `resetWind_valid`, `wind_reset`, `airspeed_after_reset`.
* **C76 Magnetometer covariance is preserved across mode switches** (proved; `Cov/BookkeepProps2`). Save/restore on sub-blocks. Theorems: `mag_cov_round_trip`, `mag_cov_restart_valid`, `resetMagCov_spec`, `stopMag_spec`.
* **C77 Accelerometer bias learning inhibition** (proved; `Cov/BookkeepProps2`). Hysteresis as history predicate. Theorems: `inhibit_spec`, `inhibit_hold`.
* **C78 Process noise bounds** (proved; `Cov/BookkeepProps2`). Interval arithmetic. Theorems: `process_noise_stops`, `process_noise_values`, `process_noise_nonneg`, `imu_noise_values`, `heightRate_convex`.
* **C79 Covariance validity is an invariant of measurement updates** (proved; `Cov/Props2`). Induction over measurement lists. Theorems: `fix_keeps_valid`, `fix_within_limits`, `updates_keep_valid`.
* **C80 Initial covariance** (proved; `Cov/Init`). Entry-wise. Theorems: `gpsHeightVariance_spec`, `init_spec`, `init_valid`.
* **C81 Bias resets** (proved; `Cov/Init`). Entry-wise and with the float cancellation stated. Theorems: `bias_reset_spec`, `resetMagBias_then_start`.
* **C82 Predicting a valid covariance gives a valid covariance** (proved; `Cov/PredictProps3`). PSD of F P Fᵀ + G Q Gᵀ; witness for the growth stop. Note: Includes the negative part (growth stop). Theorems: `prediction_valid`, `growth_stop_breaks_validity`.
* **C83 Flow measurement variance interpolates with quality** (proved; `Fusion/Flow`). Affine interpolation. Theorems: `flow_variance`.
* **C84 Flow gyro bias estimate** (proved; `Fusion/FlowComp`, `Fusion/FlowAdmit`). Recursion with clamps. Theorems: `flow_rate_comp`, `flow_bias_bounded`, `flow_bias_of_perfect_gyro`, `flow_bias_wrong`, `flow_bias_at_rest`.
* **C85 Heading fusion observation selection** (proved; `Fusion/Heading`, `Fusion/YawProps`). Case analysis of the source priority. Note: heading_inhibit_ineffective refutes the intended effect of yaw fusion inhibition. Theorems: `heading_spec`, `magHeading_exact`, `yaw_removed`, `heading_inhibit_ineffective`.
* **C86 Synthetic magnetometer Z** (proved; `Fusion/Heading`). Algebraic identity for the field magnitude. Theorems: `syntheticMagZ_exact`, `syntheticMagZ_spec`.
* **C87 Euler yaw fusion and inhibited accelerometer bias** (proved; `Fusion/Heading`, `Fusion/VelPos`). Whole function effect. Note: Finding: updateQuaternion and fuseVelPosHeight do not mask inhibited accelerometer bias axes. Theorems: `yaw_corrects_all_bias`, `yaw_moves_inhibited_bias`, `direct_observation_corrects_inhibited`.
* **C88 Rejection bits of the innovation status word** (proved; `Status/Words`). Bit layout refutation. Note: refuted. Theorems: `rejection_bits_shifted`, `passing_mag_hides_height_rejection`.
* **C89 Reported position and velocity accuracy** (proved; `Status/Outputs`). Case analysis, lower bounds. Note: the velocity accuracy uses the GPS/vision position innovation (metres) as a velocity error indicator, as the code does. Theorems: `lpos_accuracy`, `gpos_accuracy`, `global_not_better`, `exceeded_implies_dr`, `vel_accuracy`.
* **C90 Vehicle control limits** (proved; `Status/Outputs`). Case analysis. Theorems: `ctrl_limits`.
* **C91 Reported innovation test ratios** (proved; `Status/Outputs`). Case analysis. Theorems: `test_ratio_meaning`, `test_ratio_values`.
* **C92 Height source selection** (proved; `Control/HeightProps`). Exact selection table. Note: finding: stale vision height is fused at every step. Theorems: `select_baro_primary`, `select_range_primary`, `select_gps_primary`, `select_ev_primary`, `stale_vision_fused`.
* **C93 Height observations are consistent with their source** (proved; `Control/HeightProps`). Exact observation and innovation; first-step zero innovation; offset tracking; ground effect compensation. Theorems: `height_observation`, `ground_effect_deadzone`, `gps_switch_no_step`, `range_switch_no_step`, `controlHeight_fused`, `baro_offset_tracking`, `baro_offset_kept`, `ground_effect_expiry`, `ground_effect_stays_in_fallback`.
* **C94 Height timeouts and resets** (proved; `Control/HeightProps`). Exact timeout table. Theorems: `height_timeout_when`, `height_timeout_source`, `reset_height_values`, `height_timeout_fault`.
* **C95 Barometer to GPS fallback does not last** (proved; `Control/HeightProps`). Two-step witness for all states meeting the hypotheses. Note: finding. Theorems: `baro_timeout_switch_undone`.
* **C96 GPS drift filters** (proved; `Gps/ChecksProps`). Folds of first-order filters with clamps. Theorems: `drift_bounded`, `steady_drift`, `quiet_passes`, `error_norm`.
* **C97 Loss of the GPS fix does not restart the health time** (proved; `Gps/Origin`). History theorem. Note: finding. Theorems: `fix_check_never_fails`, `outage_invisible`, `outage_no_restart`.
* **C98 Setting the origin by command** (proved; `Gps/Origin`). Composition of projection and its inverse. Note: finding: commanded altitude overwritten; projection abstract with reproject∘project = id as hypothesis. Theorems: `set_origin_same_point`, `commanded_altitude_overwritten`.
* **C99 Distance to a line, vectors and three-dimensional distances** (proved; `Geo/LineArc`, `Geo/Props`). Plane and sphere geometry. Note: The track bearing is taken at the start point, so on a long track a point on the track can be reported as past its end (theorem). Theorems: `distanceToLine_spec`, `vectorTo_spec`, `distance3_spec`, `distanceLocal_spec`, `distanceToLine_on_track_past_end`.
* **C100 Distance to an arc** (proved; `Geo/LineArc`, `Geo/Arc`). Case analysis of the sector test. Note: Exact contract of the code in every case, and theorems refuting the documented contract (nearest point of the arc): the sector test uses the bearing from the position to the centre instead of the reverse, the start and end points are displaced from the position instead of the centre so that outside the sector the result does not depend on the centre, arcs in the western half plane contain nothing, a negative sweep tests the wrong sector. Theorems: `distanceToArc_spec`, `arc_wrong_side`, `arc_not_on_arc`, `arc_in_sector`, `arc_outside_sector`, `arc_outside_ignores_centre`, `arc_west_never_in_sector`, `arc_negative_sweep_sector`.
* **C101 Flow measurements correct the terrain estimate by the exact Kalman update** (proved; `Terrain/Props`, `Terrain/Run`). As C28 for the scalar terrain state. Theorems: `fuseFlow_spec`, `flow_event`, `flowReadiness_spec`, `flowReadiness_iff`.
* **C102 Wind estimator fusions are Kalman updates with exact sensitivities** (proved; `Wind/Props`, `Wind/Run`, `Wind/Config`). As C28 for the three-state wind filter. Theorems: `airspeed_gradient`, `sideslip_gradient`, `airspeed_fusion`, `sideslip_fusion`, `accepted_consistent`, `zero_airspeed_drops_estimate`, `tuning_in_force`.
* **C103 Wind estimator initialisation and prediction** (proved; `Wind/Run`). Linear algebra and counterexamples. Note: initial_covariance_not_jacobian, the north-east part of prediction and growth_depends_on_rate are findings. Theorems: `initial_wind`, `initial_covariance_not_jacobian`, `prediction`, `prediction_psd`, `growth_depends_on_rate`.
* **C104 Yaw estimator attitude models: alignment, propagation, correction and composite** (proved; `Gsf/Ahrs`, `Gsf/Run`, `Gsf/More`). Rotation algebra. Note: tilt_degenerate: specific force along body X divides 0 by 0 in the code. Theorems: `tiltMat_spec`, `tilt_degenerate`, `rotRow_spec`, `predict_row_length`, `predict_still`, `correction_direction`, `tiltCorr_spec`, `bank_covers`, `start_attitudes`, `consensus`, `align_iff`, `filtAcc_convex`, `attitude_increment`, `rest_keeps_attitude`, `heading_read`, `velocity_used`.
* **C105 Yaw alignment depends on the magnetometer type** (proved; `Aid/Align`). Histories of the control step. Note: finding. Theorems: `indoor_never_aligns`, `other_types_align`.
* **C106 Antenna (GPS) yaw source handling** (proved; `Aid/Align`). Histories of the control step. Note: vision_and_gps_yaw is a finding. Theorems: `gps_yaw_start`, `gps_yaw_faulty_forever`, `gps_yaw_timeout`, `vision_and_gps_yaw`.
* **C107 GPS position timer when vision position is used as odometry** (proved; `Aid/Odom`). Periodic history. Note: healthy_gps_times_out is the refutation. Theorems: `healthy_gps_times_out`, `accepted_position_restarts_timer`.
* **C108 GPS aiding start and stop** (proved; `Aid/Sources`). Exact start/stop conditions. Theorems: `gps_start_conditions`, `gps_starts`, `gps_stop_reasons`, `gps_stops`, `vision_yaw_lost`.
* **C109 Vision aiding start, stop and first odometry sample** (proved; `Aid/Sources`). Exact start/stop conditions. Theorems: `ev_pos_start`, `ev_stop`, `first_odometry_sample_zero_variance`, `reset_forgets_previous`.
* **C110 Synthetic position** (proved; `Aid/Sources`). Exact conditions. Theorems: `synthetic_iff`, `synthetic_fusion`.
* **C111 Optical flow aiding start, stop and use** (proved; `Aid/Sources2`). Exact conditions. Theorems: `flow_start_conditions`, `flow_starts`, `flow_stop_iff`, `flow_fused_conditions`, `flowInhibit_iff`.
* **C112 Wind, airspeed, sideslip, drag and auxiliary velocity control** (proved; `Aid/Sources2`). Exact conditions. Theorems: `wind_start`, `wind_stop`, `airspeed_flag`, `drag_keeps_wind`, `sideslip_conditions`, `drag_conditions`, `aux_conditions`.
* **C113 GPS drift report** (proved; `Gps/DriftReport`). Case analysis. Note: On the ground in motion old values are marked as updated (theorem). Theorems: `isGood_drift`, `report_fresh_iff`, `report_values`, `report_fresh_but_old`, `fresh_checks`.
* **C114 Magnetometer mode decisions** (proved; `Aid/MagNumeric`). Exact conditions with hysteresis. Theorems: `disturbed_iff`, `disturbed_rotation`, `disturbed_unknown_reference`, `yawObservable_iff`, `biasObservable_iff`, `lastSuitable`, `check3D_numeric`, `auto_mode_choice`.
* **C115 What a GPS message leaves behind before and after the origin is set** (proved; `Gps/OriginMore`). Histories of messages. Note: Finding (early_sample_misplaced): a sample buffered just before the origin is set keeps position (0,0) although the vehicle's projected position is different; it is fused later with that position. Theorems: `rough_fix`, `origin_has_reference`, `stored_position`, `early_sample_misplaced`.
* **C116 What a heading reset does** (proved; `Yaw/Turn`, `Yaw/Props`). Rotation algebra on the whole estimator. Note: Findings: resetMagHeading reads the vision yaw with the 312 sequence, startEvYawFusion with the 321 sequence, while the reset writes it with whichever sequence suits the tilt: a vision attitude identical to the filter's then changes the attitude. The conversions of the external matrix library are modelled (Shepperd) and proved to meet the assumptions (Ecl.Ekf.quatLib). Theorems: `updateYaw_turns`, `yaw_reset`, `yaw_reset_cov`, `declination_spec`, `compass_reset`, `no_second_reset`, `no_heading_source`, `vision_reset`, `vision_start`, `vision_reset_disturbs`, `vision_start_disturbs`, `vision_start_outputs`.
* **C117 Heading from the GPS course and from the emergency estimator** (proved; `Yaw/Course`). Trigonometry, covariance entry. Note: Findings: the course variance (up to (π/2)² rad²) is silently limited to 0.01 rad² and added to, not put in place of, the old heading variance (course_cov); for attitudes using the 312 sequence the first alignment turns the attitude even if the courses agree (course_first_disturbs). realign_matches links the numbers to the control logic model. Theorems: `course_unusable`, `course_first`, `course_later`, `course_states`, `course_agrees`, `course_uncertainty`, `course_cov`, `gsf_reset`, `course_first_disturbs`, `realign_matches`.
* **C118 Vertical accelerometer fault declaration** (proved; `Control/VertAccel`). Histories, counters. Note: `_bad_vert_accel_detected`, which would limit instead of reject vertical innovations, is never assigned in the code base, so that branch of the fusion (C28, C29) is dead. Theorems: `falling_iff`, `independent_iff`, `clip_bounded`, `clip_evidence`, `clip_majority_seen`, `clip_forgotten`, `fault_iff_recent_evidence`, `continuous_bad_iff`, `one_clipped_sample_suffices`, `old_clipping_counts`, `nan_is_healthy`.
* **C119 Range finder as height aid switches with hysteresis** (proved; `Control/RangeAid`). Histories, hysteresis. Note: exact rationals; 0.7f and 0.01f taken as 7/10 and 1/100. Theorems: `check_iff`, `start_stay`, `suitable_iff`, `band_keeps`, `suitable_now`, `variance_boundary`.
* **C120 Barometer correction for dynamic pressure** (proved; `Control/Baro`). Real algebra, sign and monotonicity. Note: real arithmetic; density zero gives 0/0 in the code and is excluded by hypothesis. Theorems: `compensate_value`, `axis_bound`, `compensate_bounded`, `compensate_off`, `compensate_frame`, `axis_continuous`.
* **C121 Admission of optical flow samples** (proved; `Fusion/FlowAdmit`). Admission predicate with NaN. Note: real arithmetic with explicit NaN for the flow and non-finite gyro. Theorems: `flow_admission`, `flow_interval`, `flow_accumulators`, `nan_flow_admitted`, `no_limit_no_flow`.
* **C122 Which velocity a reset gives** (proved; `Meas/Reset`). Complete case analysis of reset targets on the whole estimator with covariance. Theorems: `velocity_reset`, `reset_valid`, `unhealthy_gps_stops`, `flow_reset_unbounded`.
* **C123 Which horizontal position a reset gives** (proved; `Meas/Reset`). As C122. Theorems: `position_reset`, `reset_valid`.
* **C124 What is fused from an external vision sample** (proved; `Meas/Vision`). Rigid-body algebra of the vision frames. Theorems: `vision_alignment`, `vision_alignment_stale`, `vision_velocity`, `vision_velocity_variance`, `vision_position`, `vision_odometry`, `vision_position_noise`, `vision_reset_stale`, `vision_position_fused`.
* **C125 What is fused from a GPS sample** (proved; `Meas/GpsMeas`). Rigid-body kinematics: velocity of a point as a derivative. Theorems: `gps_lever_arm`, `gps_noise`, `gps_gates`, `lever_bias_bound`, `gps_reset_offset`, `point_velocity`.
* **C126 When a navigation failure is blamed on the heading** (proved; `Meas/YawTest`). Exact predicate. Theorems: `yaw_failure_iff`, `yaw_failure_heading_error`.
* **C127 Synthetic position and auxiliary velocity measurements** (proved; `Meas/Synthetic`). Composition with the fusion model. Theorems: `synthetic_start`, `synthetic_noise`, `synthetic_hold`, `aux_velocity`, `aux_variance_stale`.
* **C128 Motion on ground that blocks optical flow** (proved; `Meas/Motion`). History predicate. Theorems: `motion_excessive_iff`, `motion_memory`, `motion_in_control`.
* **C129 Yaw estimator inputs from the main filter** (proved; `Gsf/More`). Exact value of every call made, refutation witnesses. Theorems: `main_calls`, `accuracy_is_vertical`, `old_airspeed_used`.
* **C130 Published position, velocity and yaw rate refer to the body origin** (proved; `Meas/Published`). Rigid-body kinematics: velocity of a point as a derivative; exact filter recursion. Theorems: `published_body_origin`, `lever_arm_velocity`, `yaw_rate_filter`.
* **C131 Rotation vector variances** (proved; `Cov/RotVec`). Real analysis: directional derivatives of the rotation vector, projection of the covariance. Theorems: `rotVec_projection`, `rotComp_deriv`, `rotVec_nonneg`, `rotVec_sign`, `rotVec_identity`, `rotVec_bounds`.
* **C132 Initialisation needs data, succeeds at rest, is safe** (proved; `Boot/Props`, `Boot/Safe`). Induction over call histories; counters as invariants; totality. Note: IMU down-sampling result and sensor samples popped from the buffers are inputs; the running filter is an arbitrary function that keeps the output buffer readable. Theorems: `init_core`, `update_core`, `initialised_has_data`, `initialised_at_rest`, `startup_safe`.
* **C133 What update() returns** (proved; `Boot/Props`). Induction over call histories. Note: update_twice: finding. Theorems: `update_returns`, `update_twice`, `uninitialised_update`.
* **C134 Initial state and covariance** (proved; `Boot/InitState`). Composition of tilt, heading reset, covariance and output alignment models. Theorems: `initial_state`, `initial_covariance`, `initial_terrain`.
* **C135 reset()** (proved; `Boot/InitState`). Exact effect, refutation witnesses for every state. Note: the last two are findings: the intended property (a reset filter starts like a new one) is false. Theorems: `reset_stops`, `reset_reinitialises`, `reset_false_alignment`.
* **C136 Initial averages** (proved; `Boot/Average`). Induction over call histories; convexity. Theorems: `initial_averages`, `average_range`, `initial_imu_averages`.
* **C137 Covariance symmetric with non-negative variances in every history** (proved; `Whole/History`, `Whole/Extra`, `Whole/Effects`). Transition system of all writers of state and covariance; induction over histories; closure of an invariant under every fusion function. Note: every writer of the covariance is a step; the control logic that chooses the order is over-approximated by any order. Theorems: `covariance_sane`, `variances_limited`, `negative_vision_variance`, `resetHeight_agrees`, `reset_leaves`, `predict_leaves`, `powerOn_is_reset`, `predict_inhibits`.
* **C138 Attitude is a unit quaternion and states are limited in every history** (proved; `Whole/Attitude`). Same transition system; unit quaternion as an invariant of every step, limits from the last step of the prediction. Note: conversion between matrices and quaternions assumed mathematical for yaw resets (shown for the standard formula). Theorems: `attitude_unit`, `states_limited`.
* **C139 Perfect measurements keep a perfect estimate** (proved; `Whole/Perfect`). Zero innovation through every fusion model, then induction over histories of the whole filter; constant-acceleration motion by C68 one sample at a time. Note: Spec.Fits states what a fitting measurement is; Spec.truth is the true motion, Spec.TrueLog a log of it. Theorems: `perfect_step`, `perfect_history`, `perfect_data`.
* **C140 The covariance stays positive semi-definite through a whole flight of regular steps** (proved; `Whole/PsdHist`, `Whole/PsdNot`, `Whole/FlowNot`, `Whole/PsdPred`, `Whole/PsdFuse`, `Whole/PsdUpd`, `Whole/PsdEx`). Every step of the whole filter is shown to keep `PSD` (congruence, Schur complement, block resets; the limiter commutes with deleting unused states); induction over histories. Witness for wind-only airspeed fusion. Note: The limits of regularity are explicit hypotheses (Spec.Regular, Spec.BelowLimits); a non-trivial history meeting them is exReg; the refutations show that two of the restrictions are needed. Theorems: `covariance_valid`, `wind_only_airspeed_indefinite`, `flow_indefinite`, `valid_step`, `psd_predictCovariance`, `good_fuseMag`, `good_fuseDeclination`, `good_fuseGpsYaw`, `good_fuseAirspeed`, `good_fuseSideslip`, `good_fuseHeading`, `good_velpos`, `exReg_ok`.
* **C141 Variances keep their limits and the covariance its symmetry in floating point** (proved; `Fp/Cov`, `Fp/Exact`, `Fp/Arith`). Floats are NaN or extended reals, every operation rounds with an arbitrary monotone rounding (IEEE round-to-nearest is one, proved); the conditioning functions are modelled operation by operation and the products subtracted are arbitrary. `update_exact`: with exact arithmetic the model is that of C01-C04. Note: Covers the conditioning code operation by operation; the values computed before it (KHP, next covariance) are arbitrary floats. Theorems: `update_variances_float`, `update_refused_float`, `predict_variances_float`, `update_symmetric_float`, `predict_symmetric_float`, `update_exact`, `fix_exact`, `binary32_rounding`.
* **C142 Rounding errors of the attitude do not accumulate** (proved; `Fp/QuatUnit`). Quaternion product, norm and normalisation with the rounding of each operation; error bounds from relative error 2^-24 plus 2^-149, which `binary32_single` proves for round-to-nearest of binary32; induction over histories. Theorems: `attitude_unit_float`, `normalize_unit`, `mul_exact`, `normalize_exact`, `binary32_single`.
* **C143 NaN in the covariance is not healed; states never leave their limits in floating point** (proved; `Fp/NaN`). Same float model as C141: NaN passes every comparison of the conditioning code unnoticed (induction over updates); limits of the states by case analysis of `constrain`. Theorems: `states_limited_float`, `update_nan_stays`, `nan_stays`.
* **C144 Running averages and model weights do not degrade with flight time in single precision** (proved; `Fp/Filters`). Error bounds per operation as in C142 and induction: the contraction of the average (factor 0.99) and the normalisation of the weights absorb the roundings. Theorems: `dt_average_float`, `dt_start`, `weights_float`, `weights_from_start`.
* **C145 The reported covariance is the covariance of the error** (proved; `Fusion/Honest`, `Fusion/HonestEx`, `Fusion/HonestMag`, `Fusion/HonestGps`). Estimate, truth and noise as L² random variables on a measure space, the modelled fusion code run in every outcome; bilinearity of second moments gives the moments of the corrected error, compared with the covariance the code reports when no limit acts (`fix_quiet`). Excludes quaternion entries (renormalisation is not linear) and conditions on the gate accepting in every outcome. Note: exact for velocity and position fusion; refuted for magnetometer fusion and for a whole GPS sample with the exact excess and a witness; for partial corrections the exact deviation. Quaternion entries excluded. Theorems: `vertical_velocity_honest`, `vertical_position_honest`, `horizontal_velocity_honest`, `horizontal_position_honest`, `pair_conservative`, `partial_update_crosscovariance`, `stale_innovation_overconfident`, `mag_overconfident`, `mag_variance_too_small`, `gps_position_overconfident`, `gps_variance_too_small`.
* **C146 No accepted sample is lost: each reaches the filter at the first step that reaches its time** (proved; `Interface/Delivery`). Specification with unbounded memory (`Spec.dueRun`); the abstract queue of C01 is shown to hold exactly the samples not yet due (spacing argument for the capacity), then lifted to the ring buffer by C01 and to the rate-limited sensor input by C11; refutations are concrete histories evaluated in the kernel. Note: specification keeps everything for ever; the comment's guarantee at estimator_interface.cpp:80 is refuted for the start-up phase. Theorems: `buffer_delivers_due`, `buffer_delivers_all`, `port_delivers_due`, `rate_limit_window`, `long_step_loses_sample`, `stale_sample_never_delivered`, `startup_overwrites_accepted`.
* **C147 The published output converges to the delayed EKF estimate** (proved; `Ekf/Tracking`, `Ekf/TrackingVert`). The model of C70 iterated over cycles of IMU samples; the uniform shift of the history gives an exact delay-free recursion; the loop is diagonalised (real eigenvalues for every gain) and bounded mode by mode; the vertical loop by a quadratic Lyapunov function. The attitude loop is C148. Note: real arithmetic, constant filter interval; the attitude loop (which has a delay) is not covered. Theorems: `recorded_unchanged`, `recorded_newest`, `tracking_recursion`, `velocity_tracks`, `position_tracks`, `cycle_vert`, `vert_recorded_newest`, `vertical_tracks`.
* **C148 Published heading converges to the heading of the delayed filter** (proved; `Ekf/TrackingYaw`). `Ekf/TrackingYaw.lean`: `delay_loop` bounds e(k+D+1) = e(k+D) - g_k e(k) + w_k for g D <= 1/2 by strong induction over windows of 2 D + 1 values; the predictor cycles of C147 restricted to rotations about the vertical give that recursion exactly, with the sine of the half error between 2/pi and 1 times the error; the bound itself keeps the error within half a turn. Note: Level motion (rotations about the vertical). Library fact used as hypothesis: the quaternion of the axis-angle (0,0,t) is (cos t/2,0,0,sin t/2). Theorems: `delay_loop`, `heading_history`, `heading_tracks`, `heading_tracks_timing`.
* **C149 A rejected GPS position does not lock the filter out, unless a yaw reset is waited for** (proved; `Aid/Lockout`). `Aid/Lockout.lean`: one step of the aiding control from the frame lemmas; the position timer is shown to change only with an accepted position or a GPS reset, so the bound lifts to histories by induction; the finding is an invariant (`Spec.Waiting`) over histories of any length plus a history from power-on that reaches it. Note: positive claim under the proviso; the unconditional claim is refuted by gps_lockout_forever and gps_lockout_reachable. Theorems: `gps_recovers`, `position_time_changes`, `gps_lockout_bounded`, `gps_lockout_forever`, `lock_reached`, `gps_lockout_reachable`.
* **C150 The yaw estimator settles on the model that explains the GPS velocity** (proved; `Gsf/Select`, `Gsf/SelectEx`). `Gsf/Select.lean`: one fusion multiplies every relative weight by at most max(likelihood ratio, level of the lower limit) (from C52); chained by induction over arbitrary call histories; the published yaw from the geometry of a resultant with a dominant term. `Gsf/SelectEx.lean` evaluates a whole history exactly (alignment, start, one accelerated sample) to show the hypotheses can be met with a factor below one. Theorems: `select_step`, `model_selected`, `composite_near`, `published_current`, `published_selected`, `selection_example`.
* **C151 Over flat ground the terrain estimate converges to the ground, whatever it starts from** (proved; `Terrain/Converge`). Terrain/Converge.lean. `Spec.excess` = distance of the estimate from the sensor error band around the ground; one step is a convex combination (`fuseHagl_spec`), a reset, or nothing, then the clearance clamp; induction over the flight with the count `Spec.effective`; no lock-out from the ten-second reset. Note: Range finder only (terrain optical flow off); over the reals. Theorems: `terrain_step`, `terrain_converges`, `terrain_effective`.
* **C152 What an accepted measurement does to the estimate and to its reported variance** (proved; `Fusion/Accuracy`). Fusion/Accuracy.lean. Diagonal of the covariance after a direct observation including limits (`direct_diag` from C26), `Spec.weighted`/`Spec.pooled`; repeated heights by induction; east axis: exact value `q − q²/(P+R)` bounded by completing the square, refutation on a concrete correlated covariance. Note: Horizontal: no limit acting on the north update; repeated: no limit acting. The expected law for east is refuted by a concrete case. Theorems: `height_accuracy`, `vertical_velocity_accuracy`, `horizontal_position_accuracy`, `horizontal_velocity_accuracy`, `repeated_heights`, `east_variance_above_measurement`.
* **C153 Rejected vision positions and optical flow lead to resets; losing the terrain estimate freezes the position** (proved; `Aid/Lockout2`). Aid/Lockout2.lean. The position timer lemmas of C149 give the vision bound by induction over the history; the flow case is an invariant `Spec.FlowOnly` of the whole step; reachability from power-on by kernel evaluation of a three-step prefix, then induction for any number of samples. Note: What the resets write is C122/C123. Theorems: `vision_recovers`, `vision_lockout_bounded`, `flow_resets`, `flow_reset_storm`, `flow_storm_reachable`.
* **C154 Covariance prediction moves errors as the state prediction does** (proved; `Whole/Linear`). Whole-filter prediction (C68 + C27) applied to two states; difference of outputs against the derivative of the process model at the predicted state; small-angle bound for the rotation quaternion of the matrix library Note: attitude parts without Earth rotation; exact reals. Theorems: `transition_used`, `velocity_position_errors`, `attitude_errors`, `gyro_bias_errors`, `bias_position_error_ignored`.
* **C155 Bounded influence of a single measurement** (proved; `Fusion/Bounded`, `Fusion/BoundedMag`, `Whole/Bounded`). Cauchy-Schwarz for the covariance form gives |K v| <= gate * deviation for every gain P h / S with S above h P h (also a stale S); applied to the specifications of C28-C35, C48, C101; witness for the magnetometer built with the known-attitude axis lemma of C145; combined with C140 over whole histories Note: Exact arithmetic. Quaternion components are bounded before the rescaling to unit length. For the two-component measurements no limit may act on the covariance between the components. mag_moves_beyond_gate is the negation for the later magnetometer axes. Terrain: Ecl.Terrain.range_bounded, Ecl.Terrain.terrain_flow_bounded. Theorems: `height_bounded`, `vertical_velocity_bounded`, `horizontal_velocity_bounded`, `horizontal_position_bounded`, `airspeed_bounded`, `sideslip_bounded`, `heading_bounded`, `gps_heading_bounded`, `drag_bounded`, `declination_bounded`, `flow_bounded`, `mag_bounded`, `mag_moves_beyond_gate`, `range_bounded`, `terrain_flow_bounded`, `influence_bounded`.
* **C156 The sensor inputs do not interfere and are safe together** (proved; `Interface/Front`, `Interface/FrontSafe`). One state for all inputs, one step function over a sum of events; frame lemma per event gives independence by induction over the history (filter of the history); safety by the ring buffer refinement, the averager invariant and a bound on the binary32 stamp shift Note: the condition of fewer than 255 samples per interval is needed: the 8-bit sample counter wraps to zero and the average divides by it (C12). GPS payload computation (origin, quality checks) is C115/C87; the members that setGpsData sets outside the buffer are in C115. Theorems: `streams_independent`, `interface_safe`, `messages_before_imu_ignored`, `interface_capacity`, `gps_message_stored`.
* **C157 When the heading is reset while flying on the magnetometer** (proved; `Aid/HeadingReset`). Pointwise theorem about the whole control function: exact value of request, alignment flag and list of recorded heading resets in every case, by a 'kept' relation for mode selection and fusions; memory and recovery over two complete updates; witnesses by kernel evaluation of runs Note: two findings are proved as theorems: a fixed wing without usable GPS course resets to a disturbed compass; with type INDOOR a requested reset is neither carried out nor withdrawn. Theorems: `heading_reset_decision`, `step_remembers_source`, `heading_recovered`, `disturbed_compass_used`, `indoor_request_stays`.
* **C158 Origin of the local frame is irrelevant** (proved; `Whole/Shift`). One lemma per fusion function that its observation, gain and covariance update do not read the position entries (generated for the Jacobians), the flow range only through the height above terrain; commutation of every step with the displacement, then induction over the history Note: exact real arithmetic; position innovations are inputs of the position fusions (estimate minus observation, hence unchanged). Theorems: `origin_irrelevant`.
* **C159 Control decisions depend on elapsed times, not on the absolute clock** (proved; `Aid/Clock`). `Aid/Clock.lean`: relation "same state, stamps moved by delta" preserved by every function of the control step (two-run induction over input histories); UInt64 arithmetic lemmas for each comparison form (t + limit < now, now - t, t + limit <= now, t = now, t = 0); a concrete witness shows the 32-bit age of the last non-inhibited time is the exception. Note: relational induction over the whole control step (magnetometer, GPS, flow, vision, air data, drag, auxiliary velocity, synthetic position); the second theorem shows why the 32-bit age needs its condition. Theorems: `decisions_depend_on_elapsed_time`, `inhibition_depends_on_clock`.
* **C160 Sensors switched off by a parameter do not influence the control decisions — except GPS** (proved; `Aid/Disabled`, `Aid/DisabledFlow`). `Aid/Disabled.lean`: each stage of the control step is shown not to read the inputs of the sensor (definitional equality) or to be the identity when the sensor is off; induction over histories gives equal runs; three concrete histories (kernel evaluation) show where a switched-off GPS or an UNUSED magnetometer still acts. Flow (`Aid/DisabledFlow.lean`): a relation `equal but for four bookkeeping fields` kept by every stage; a small tactic walks through each function body in the two runs. Note: equality of complete runs; three refutations where independence fails. Independence from optical flow data is not stated here (the flow bookkeeping flags differ). Theorems: `vision_off_irrelevant`, `drag_off_irrelevant`, `mag_none_irrelevant`, `gps_off_irrelevant`, `disabled_gps_sets_heading`, `disabled_gps_blocks_compass`, `unused_mag_fused`, `flow_off_irrelevant`.
* **C161 GPS samples reach the filter only if GPS position or GPS height is selected; the GPS heading bit alone is ineffective** (proved; `Interface/GpsHeading`). `Interface/GpsHeading.lean`: invariant "the GPS buffer is empty" over all events of the nine-stream interface when GPS is not needed; the answers drive the control logic of `Aid`, where an update without a GPS sample cannot enter or use GPS heading; a concrete history with mode 129 and 128 (kernel evaluation). Note: the control part alone is no_samples_no_gps_heading. Theorems: `heading_only_gets_no_samples`, `heading_bit_alone_has_no_effect`, `same_fix_lost`, `no_samples_no_gps_heading`.
* **C162 The estimate does not depend on which of the two quaternions of the attitude is stored** (proved; `Whole/Cover`). `Whole/Cover.lean`: sign change of the quaternion states as a diagonal +-1 transformation; every generated expression (prediction, innovation variances, observation Jacobians, gains) is shown to be even or odd under it (generated lemmas `CoverGen`, `CoverPred`), the hand-written steps are done by hand, the attitude norm is an invariant, and a two-run induction over histories gives the result. Note: all steps of the whole-filter model; ideal (real) arithmetic. Theorems: `other_quaternion_same_estimate`, `other_quaternion_run`.
* **C163 Recovery decisions at each GPS sample** (proved; `Aid/Recovery`). `Aid/Recovery.lean`: exact case analysis of the GPS part of the control step, with the decision conditions restated as propositions (no flags computed by the model) and the list of operations performed as the observable. Note: exact effects of controlGpsFusion on log, events, timers and requests. Theorems: `gps_recovery`, `gps_start_heading`.
* **C164 Mirrored flight, mirrored estimate** (proved; `Whole/Mirror`). Sign change of the 24 states by a diagonal matrix, equivariance of each generated expression (gains, innovation variances, covariance prediction; generated lemmas) and of each hand-written step; then induction over the history. Angle-choosing steps excluded, with a witness. Note: equality of whole filter states for every history; steps that pass through an angle interval are excluded, with a negation witness. Theorems: `mirror_run`, `planar_flight_stays_planar`, `matrixLib_mirror`, `mirW_powerOn`, `south_field_not_mirrored`.
* **C165 A reset to vision is followed by the old error** (proved; `Whole/VisionReset`). Model of one vision sample in the order of control.cpp (innovation, resets, fusion); the reset leaves the reset states uncorrelated, so the gain is exactly variance/(2 variance); zero correlation is kept by the covariance limiter (sign-change argument of C162/C164). Note: exact result of reset and fusion of one sample, all states; the expected property (estimate equals measurement) is refuted. Theorems: `vision_reset_overshoots`, `vision_velocity_reset_overshoots`, `vision_rejected_then_overshoots`, `evPosStep_no_timeout`.
* **C166 Vision odometry and position resets** (proved; `Whole/VisionOdometry`). `Whole/VisionOdometry.lean`: gain of an uncorrelated position is exactly variance/(variance + noise); zero noise gives gain 1 and the lower variance limit (`fuse_alone`); control level: the first sample is recognised by the flag, GPS start keeps the flag. Note: real arithmetic; horizontal position uncorrelated with the other states, as every reset leaves it. Findings. Theorems: `first_vision_sample`, `vision_start_certain`, `gps_has_no_weight`, `vision_takes_back_gps_start`, `vision_start_unset`, `gps_start_remembers`.
* **C167 What the innovation getters report** (proved; `Aid/ReportedProps`). `Aid/Reported.lean`: the arrays behind the getters as a second state driven by the control model, written in the order of the code; exact value per channel after one step in terms of flags before and after the step, then induction over histories. Note: numbers over any linearly ordered field; the numbers of a sample are inputs. Theorems: `gps_velocity_reported`, `disabled_gps_reads_stale`, `gps_position_reported`, `without_aiding_gps_reports_fake`, `vision_velocity_reported`, `vision_position_reported`, `first_odometry_sample_reports_old_innovation`, `aux_velocity_reported`, `idle_vision_reads_zero`, `idle_gps_velocity_reads_zero`, `aux_never_cleared`.
* **C168 Which velocity the yaw failure test looks at** (proved; `Aid/ReportedProps`). Same model: last writer of `_last_vel_obs` in a step; combined with the geometric form of the test (C126). Theorems: `remembered_velocity`, `remembered_variance`, `aux_hides_wrong_heading`.
* **C169 A reset to GPS ignores the antenna position** (proved; `Whole/GpsReset`). Model of one GPS sample in the order of control.cpp (start or timeout resets from the raw sample, correction, three fusions); the reset leaves velocity and position uncorrelated, every fusion of an uncorrelated state is exact and keeps the others, so the final state is a closed formula. Note: real arithmetic; the sample's attitude is the one after any yaw reset; no bad-vertical-acceleration flag; starting with optical flow in use resets no velocity and is not covered. Theorems: `gps_reset_then_fused`, `gps_reset_no_lever_arm`, `gps_reset_leaves_half_lever_arm`.
* **C170 GPS aiding bounds the time an estimate can disagree with GPS** (proved; `Whole/GpsClosed`). The operations recorded by `Aid.controlGps` are interpreted on states and covariance (`runReset`, shown equal to `resetVelocity`/`resetHorizontalPosition`), the fusions are those of C169, and the acceptance flags of the control logic are those of the fusions; case split of C163, then induction over the list of samples with the position timer as the link (`Whole/GpsClosed.lean`). Note: GpsClosed.lean: decisions (Aid) and numbers (Whole) in one loop; accuracies of the sample between 1 mm and 1 km; divergence: induction over the flight. Theorems: `recorded_reset_done`, `gps_aiding_recovers`, `gps_aiding_only_fuses`, `gps_no_unnoticed_divergence`.
* **C171 What a height reset leaves behind at the fusion horizon** (proved; `Whole/HeightReset`). `Whole/HeightReset.lean`: one step made of the timeout handling and the height fusion of C92-C95 on the height members and of the reset and the scalar fusion on the filter. The reset leaves state 9 uncorrelated (`uncorrSet`), so the fusion is the scalar update (`vpos_lone`); source selection with the source kept changes nothing the observation depends on (`select_kept`). Note: Exact result of reset and fusion in one step, lower bound on the remaining error, and the step of a switch to GPS. Fusions of other data between the two are not part of the step. Ground effect compensation off for the barometer. Theorems: `height_reset_then_fused`, `height_reset_error`, `height_reset_var_le`, `height_switch_step`.
* **C172 From the range buffer to a height above ground** (proved; `RangeFinder/Step`). `RangeFinder/Step.lean`: the step composes delivery, the three parameter setters, `runChecks` (C08-C10, C62) and the in-place correction of the sensor position; the height theorem uses that a healthy sample has a positive tilt cosine; the history theorem is by induction from the end. Note: The conversion of the hysteresis to an integer is the floor for values below 2^64. Theorems: `range_step_healthy`, `range_step_none`, `range_step_height`, `range_step_configured`, `range_corrected_once`.
* **C173 What a vision sample resets; rejected vision velocities** (proved; `Aid/VisionRecovery`). `Aid/VisionRecovery.lean`: the log of `controlEv` is computed exactly by cases over the timers and test outcomes and compared with a decision table over the state before; the finding is an invariant of `step` over all histories whose inputs accept positions and reject velocities, reached from power-up. Note: exact effects of controlExternalVisionFusion on log, events and timers; finding for histories without GPS, flow, auxiliary velocity and magnetometer. Theorems: `vision_sample`, `vision_velocity_ignored_forever`, `vision_velocity_ignored_reachable`.
* **C174 NaN measurements of the other sensors** (proved; `Fusion/OthersNaN`). gates and innovations of eight sensors over reals with NaN (Fusion/OthersNaN); prediction, heading reset (rotation matrix, both Euler sequences, quaternion) and updates over the same type; loss of the attitude is an invariant of every history, by induction. Note: Floats are a real or NaN, infinities and rounding not modelled; the covariance health checks are taken as passed. Theorems: `nan_accepted`, `nan_mag_accepted`, `nan_rejected`, `finite_gates`, `attitude_lost_forever`, `one_nan_sample`.
* **C175 GPS quality checks on NaN** (proved; `Gps/NaN`). the checks of C37 and C96 over reals with NaN (Gps/NaN), equal to the real model on numbers; NaN filters are invariants over histories; the receiver without a number is followed by induction over its messages. Note: Floats are a real or NaN; infinities and rounding not modelled. Theorems: `nan_checks_real`, `accuracy_checks`, `vspeed_check_dead`, `hspeed_check_blind`, `nan_receiver_good`.
* **C176 The wind estimator heals itself from NaN** (proved; `Wind/NaN`, `Wind/NaNReal`). the wind estimator over reals with NaN (Wind/NaN); a number comes out of H P Hᵀ only if everything that went in is a number, so NaN reaches the gain and all states and the finite check sees it; honesty of the valid flag is an invariant of histories. Note: Floats are a real or NaN; a quotient with denominator zero counts as NaN, infinities and rounding are not modelled; the sideslip sensitivity and the relative wind are arbitrary in the history theorem. The NaN airspeed case of nan_detected assumes an innovation variance that is not negative, which C50 guarantees for the estimator over the reals. Theorems: `nan_detected`, `nan_healed`, `nan_restarts`, `nan_start`, `agree_airspeed`, `agree_beta`, `agree_update`.
* **C177 Velocities with a poor accuracy never teach the yaw estimator anything** (proved; `Gsf/Coarse`). the yaw estimator model of C52 (Gsf/Coarse): with r = accuracy², det S ≥ r² bounds every likelihood by 0.16/accuracy², so with equal weights all fall below the clip of 1e-5; equal weights are an invariant of histories; the calls of the main filter from C129; the contrast is the history of C150. Note: Floats are reals, as in C52. The threshold 57 is not sharp. Theorems: `coarse_undecided`, `coarse_restarts`, `coarse_main`, `fine_decides`.
* **C178 The terrain estimate heals from NaN, but a NaN variance is not noticed** (proved; `Terrain/NaN`, `Terrain/NaNReal`). the terrain estimator of C48 over reals with NaN (Terrain/NaN); fmaxf discards NaN, so the variance and the flow branch heal while the range branch waits for its 10 s reset; cleanness is an invariant of histories. `agree_step`: on numbers it is the model of C48. Note: Floats are a real or NaN; a quotient with denominator zero counts as NaN, infinities and rounding are not modelled. The down position of the main filter, range and parameters are numbers; the line of sight sensitivities are arbitrary numbers. Theorems: `nan_healed`, `nan_flow_ignored`, `nan_variance_published`, `agree_step`.

## 5. Findings (behaviour that contradicts the documented or intended property, each proved)
* **Optical flow fusion destroys the covariance (C140, `flow_indefinite`).** EKF/optflow_fusion.cpp computes the gain of the second axis for attitude and velocity before the first axis is fused, but `measurementUpdate` subtracts `K H P` with the covariance after it. With north and east velocity variances of 100 (m/s)^2 and correlation 0.7, default noise, level at rest one metre above the ground and zero innovations, one accepted fusion leaves a covariance in which the sum of the two velocities has a variance below -35 (m/s)^2. No check notices it: all variances stay positive.
* Ring buffer: query times below 100 ms re-deliver or invent samples; a length of 256 is unusable (C03).
* Interface: 8-bit averaging counter divides by zero after 256 samples (C12); minimum observation interval divides by zero for a one-slot buffer (C14);
  time shift loses precision without bound as time stamps are converted to float (C15); bias variance uses dt instead of dt² (C63).
* Range finder: not looking down before the first tilt update, an unconfigured one looks up (C08).
* Covariance: inhibited bias axes, variance caps and the growth stop break positive semi-definiteness (C72, C73, C82); accelerometer floor above cap (C26).
* Fusion: sideslip with zero forward speed divides by zero (C30); mixed gain of flow Y (C31); stale innovation between axes (C28, C32); declination not wrapped
  (C34); GPS yaw blind when the antenna points east/west (C33); yaw inhibition ineffective (C85); inhibited accelerometer axes still corrected (C87);
  NaN in one horizontal axis or under an inhibited gate is fused (C36); NaN flow admitted, zero flow rate limit drops moving samples (C121); flow gyro bias estimator
  uses the wrong sign convention, a perfect gyro gives −2ω (C84).
* Status: 18 flags in a 16-bit word (C56); rejection bits off by one (C88); velocity accuracy uses a position innovation (C89); height ratio unwritten (C91);
  time 0 is a marker (C57).
* Height: loss of GPS can leave no height source for good (C20); stale vision height fused (C92); fallback to GPS undone by next barometer sample (C95);
  ground effect compensation never expires while the barometer is a fallback (C93); one clipped sample counts as frequent, the detector result is never used (C118);
  negative innovation variance passes (C119).
* GPS: fix type check never fails because messages without fix are dropped (C97); commanded origin altitude overwritten (C98); sample buffered before the origin
  stays at (0,0) (C115); drift report marked fresh with old values (C113); timer starvation in odometry mode, reset every 14 s (C107).
* Geo: distance-to-line past end on long tracks (C99); distance-to-arc sector test (C100); longitudes beyond ±540° clamped (C46); declination interpolated across the wrap (C47).
* Terrain: repeated resets (C48), valid for 5 s without sensor, flow counted as range (C49).
* Wind estimator: exchanged Jacobian rows in the initial covariance, process noise on NE covariance, growth depends on rate, caps break validity, backward time passes (C50, C51, C102, C103).
* Yaw estimator: bias copied without limit (C54); tilt alignment 0/0 (C104).
* Magnetometer control: 3-axis fusion continues under disturbance; declination flag stays after a fault; switching to NONE keeps the compass in use (C55, C114);
  emergency resets uncounted without GPS aiding, 8-bit counter (C59); two yaw sources active (C106); types INDOOR and UNUSED never align (C105).
* Heading resets: vision yaw read with one sequence and written with another (C116); course variance capped (C117).
* Measurements: vision lever arm before frame rotation, frozen alignment (C124); GPS resets ignore the lever arm (C125); GPS timeout reset zeroes velocity (C122);
  auxiliary velocity reset variance (C127).
* Yaw estimator inputs: the vertical position accuracy is handed over as the speed accuracy, the reported speed accuracy is ignored; a vehicle that is not fixed wing keeps
  using the last airspeed however old (C129).
* Published velocity: the gyro bias is not removed from the rate used for the lever arm; the yaw rate filter divides by the sample interval unguarded (C130).
* Wind reset: airspeed taken as horizontal (C75).
* Start-up: `update` does not consume the IMU sample, a second call predicts twice (C133); range and GPS height variances are unreachable at initialisation (C134);
  `reset` keeps sample counters, averages and the heading reset time, so it re-initialises without new data and can report a false yaw alignment (C135).
* Whole filter: a negative variance in vision data is put into the covariance unchecked by a reset (C137).
* Partial updates: airspeed and sideslip fusion while other aiding is in use (and magnetometer fusion in its first 5 s, heading fusion during 3-axis fusion) zero part of the
  gain but correct the covariance as if it were optimal; the result need not be a covariance: variance -0.6 from a valid matrix (C140).
* Floating point: a NaN variance passes the health check and all limits and is never healed by updates (C143).
* Covariance consistency: the second and third magnetometer axes are fused with recomputed gain and variance but the innovation from before the first axis: the reported
  variance can be 36 times smaller than the mean square error; corrections of selected states only leave wrong cross covariances; the horizontal velocity and position pairs
  are consistent but use a stale innovation variance and so discard information. One GPS sample: the position innovation is taken before the velocity is fused,
  so the velocity information is counted twice for the position: reported variance 0.01, mean square error 0.35 (C145).
* The minimum observation interval does not guarantee what its comment claims (no accepted sample overwritten before it is due) while the IMU buffer is filling:
  with the default 9 slots 13 samples are accepted and 4 of them lost (C146).
* GPS lock-out: when a velocity direction mismatch asks for an emergency yaw reset and the yaw estimator has no converged answer, EKF/control.cpp:641-671 does nothing at all
  (the position and velocity reset is in the `else` branch): from a reachable state GPS stays "in use" with every sample rejected and no reset, for any length of time (C149).
* Position freeze: flying on optical flow alone with the terrain estimate lost for more than ten seconds, every good flow sample resets the velocity and puts the position back
  to the last known one with zero variance; the reset does not restart the timer that causes it, so this goes on until flow is accepted again (C153).
* Accuracy: after an accepted horizontal fix of variance R the reported east variance can be more than 25 R (stale innovation variance, correlated errors) (C152).
* C154: the covariance prediction evaluates its transition matrix at the already predicted attitude, which makes its velocity rows exact for accelerometer bias errors; it uses a fixed 10 ms and Euler position integration while the state uses the measured interval and the trapezoidal rule (`bias_position_error_ignored`).
* C155: all three magnetometer innovations are tested with the variances before the fusion and are not recomputed between axes, so an axis that passed a 3-sigma test can move a body field state by 10 of its reported deviations (`mag_moves_beyond_gate`); no other sensor can exceed its gate.
* C157: `realignYawGPS` (EKF/ekf_helper.cpp:373) falls back to `resetMagHeading` without the disturbance test that `canResetMagHeading`
  makes for all other vehicles, so a fixed wing climbing through 1.5 m while the field is disturbed resets its heading to the disturbed
  compass (`disturbed_compass_used`).  With the magnetometer type INDOOR (and UNUSED) a requested reset fails every time and stays
  requested (`indoor_request_stays`).
* C159: `checkMagInhibition` (EKF/mag_control.cpp:244-255) cuts `imu time - time last not inhibited` to 32 bits; the second stamp starts at zero, so with a magnetometer inhibited from power-on the request to inhibit depends on the absolute clock modulo 71.6 minutes (`inhibition_depends_on_clock`).
* C160: with the GPS bits of the fusion mode clear but GPS selected as height source (so that `setGpsData` stores samples), GPS still (a) answers an emergency request with a yaw, velocity and position reset (`disabled_gps_sets_heading`) and (b) on a fixed wing above 5 m/s suppresses the compass heading reset after take-off (`disabled_gps_blocks_compass`); magnetometer type UNUSED can be fused in three axes (`unused_mag_fused`).
* C161: `setGpsData` ignores the GPS heading bit (MASK_USE_GPSYAW): with that bit alone no GPS sample is stored, so GPS heading can never be used (`heading_bit_alone_has_no_effect`). Two related observations on the same function, by reading only: the antenna offset is taken from the newest message, not from the delayed sample that is fused, and `_gps_speed_valid` is written and never read, so an invalid GPS velocity is fused like a valid one.
* C164: the declination limit is not symmetric at its cut: an earth field estimate pointing exactly south, which is its own mirror image, is turned to the east (`south_field_not_mirrored`, mag_fusion.cpp:925-945, atan2f returns +pi).
* C165: after a timeout the vision position or velocity innovation computed before the reset is fused after it (control.cpp:258-301, 309-326): the estimate is put on the other side of the measurement, by half the old error, if that passes the gate.
* C166: with GPS and vision position both selected (a) the first vision sample after every start or reset is fused with variance zero, which makes the filter certain of its horizontal position (1 mm) and gives GPS positions no weight; any innovation left over from before is applied in full (control.cpp:246-248, 301); (b) `startGpsFusion` resets the position without clearing `_hpos_prev_available`, so the next vision sample takes back most of the jump (5 m at 2 m accuracy: 4.7 m taken back).
* C167: reported innovations can be stale or of another origin: GPS switched off by the parameter leaves the last sample's numbers (control.cpp:549-552 clears only the flag); with no aiding the GPS position getters describe the synthetic position (control.cpp:1323-1328); `stopAuxVelFusion` is never called; `Ekf::reset` clears none of them.
* C168: with an auxiliary velocity sensor the yaw failure test compares the estimate with the auxiliary velocity, not GPS (control.cpp:617, 1345), and its variance is that of the previous auxiliary innovation (control.cpp:1347 assigns in the direction opposite to the one the fusion needs).
* C169: resets to GPS use the antenna's position and velocity (ekf_helper.cpp:66-72, 197-203); the lever-arm correction only comes afterwards (control.cpp:680-689), so at least half of the lever arm stays in the estimate after a reset with an exact sample, and all of it if it is outside the gate.
* C171: a height reset writes the newest sample into the state at the fusion horizon (ekf_helper.cpp:266-312) and then fuses the delayed one (control.cpp:1104-1153): while climbing, at least half of the climb during the delay stays as height error at the horizon; a timeout switch from barometer to GPS steps the height by the same amount although the GPS offset has just been aligned (ekf_helper.cpp:1266, 295). Horizontal resets use the delayed sample.
* C173: with vision position and velocity in use, rejected vision velocities never lead to a reset while positions are accepted (control.cpp:316 asks that no position was accepted for a second, and the position of the same sample is fused before); vision velocity stays flagged as in use for ever. The velocity estimate is then corrected through the positions only.
* C174: innovation tests of the form `ratio > 1 → reject` let NaN through: airspeed (airspeed_fusion.cpp:147), sideslip (sideslip_fusion.cpp:165), magnetometer (mag_fusion.cpp:180), compass heading (mag_fusion.cpp:643), antenna heading (gps_yaw_fusion.cpp:151, though its data are checked for finiteness before use) and optical flow (optflow_fusion.cpp:246). One NaN airspeed or magnetometer sample destroys all states, also if only the wind is corrected (0 · NaN), and no velocity, position or heading reset heals it. Tests of the form `ratio <= 1 → use` (drag, range finder) are safe.
* C175: every GPS check is written `value > limit → fail`, so NaN passes (gps_checks.cpp:166-173, 213-252); a receiver reporting NaN for all accuracies and velocities is declared good after the health time. `_gps_velD_diff_filt` is the one filter that `resetGpsDriftCheckFilters` leaves out (ekf_helper.cpp:1663-1667): one NaN down velocity blinds the vertical speed check until the program restarts, `Ekf::reset` included.
* C176: the wind estimator, unlike the main filter (C174), checks its states for finiteness after every fusion (WindEstimator.cpp:328-331) and so recovers from NaN with the next good sample. The check is missing after `initialise` (WindEstimator.cpp:41-94): a NaN airspeed at start-up or re-start gives a NaN estimate that `is_estimate_valid` reports as valid until the next fusion.
* C177: consequence of the C129 finding that the vertical position accuracy is passed as velocity accuracy (ekf_helper.cpp:1659): a receiver with a good speed accuracy but a vertical accuracy of 57 m or worse restarts the yaw estimator at every other sample, and the emergency yaw is never better than the evenly spaced start. Proved for all histories (`coarse_main`, `coarse_restarts`).
* C178: `fmaxf(_terrain_var + obs_variance, obs_variance)` (terrain_estimator.cpp:151) drops a NaN variance, so the innovation test passes with the observation variance alone; the gain (:159) is then NaN: the position becomes NaN, `fmaxf(.., 0)` makes the variance 0 and the estimate is flagged valid (`nan_variance_published`).
