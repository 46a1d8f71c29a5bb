{
 "claims": [
  {
   "property": "C01",
   "status": "proved",
   "theorems": [
    "Ecl.RingBuffer.ringbuffer_refines_queue",
    "Ecl.RingBuffer.ringbuffer_accessors",
    "Ecl.RingBuffer.ringbuffer_allocate",
    "Ecl.RingBuffer.spec_length_le"
   ],
   "note": "Refinement to an abstract queue for every operation history."
  },
  {
   "property": "C02",
   "status": "proved",
   "theorems": [
    "Ecl.RingBuffer.pop_delivers_newest_eligible",
    "Ecl.RingBuffer.delivered_at_most_once"
   ],
   "note": "For query times of at least 100 ms; see C03 for the rest."
  },
  {
   "property": "C03",
   "status": "proved",
   "theorems": [
    "Ecl.RingBuffer.early_query_redelivers",
    "Ecl.RingBuffer.early_query_invents_sample",
    "Ecl.RingBuffer.constructor_256_unusable",
    "Ecl.RingBuffer.constructor_truncates",
    "Ecl.RingBuffer.unallocated_buffer"
   ],
   "note": "Negation witnesses of the unrestricted contract."
  },
  {
   "property": "C04",
   "status": "proved",
   "theorems": [
    "Ecl.AlphaFilter.updates_closed_form",
    "Ecl.AlphaFilter.updates_const_error",
    "Ecl.AlphaFilter.updates_in_hull",
    "Ecl.AlphaFilter.updates_const_tendsto",
    "Ecl.AlphaFilter.unconfigured_ignores_samples"
   ],
   "note": "Exact real/field arithmetic; float rounding not modelled."
  },
  {
   "property": "C05",
   "status": "proved",
   "theorems": [
    "Ecl.AlphaFilter.setParameters_spec",
    "Ecl.AlphaFilter.setParameters_no_div_zero"
   ],
   "note": ""
  },
  {
   "property": "C06",
   "status": "proved",
   "theorems": [
    "Ecl.ImuDownSampler.run_loses_nothing",
    "Ecl.ImuDownSampler.run_time_conserved",
    "Ecl.ImuDownSampler.emitted_rotation",
    "Ecl.ImuDownSampler.matrixLib_exp_log"
   ],
   "note": ""
  },
  {
   "property": "C07",
   "status": "proved",
   "theorems": [
    "Ecl.ImuDownSampler.run_output_interval",
    "Ecl.ImuDownSampler.first_emission"
   ],
   "note": ""
  },
  {
   "property": "C08",
   "status": "proved",
   "theorems": [
    "Ecl.RangeFinder.healthy_iff_all_checks",
    "Ecl.RangeFinder.healthy_refreshes",
    "Ecl.RangeFinder.bad_quality_blocks",
    "Ecl.RangeFinder.future_sample_rejected",
    "Ecl.RangeFinder.handed_sample_is_checked",
    "Ecl.RangeFinder.not_ready_not_healthy",
    "Ecl.RangeFinder.fresh_reports_nothing",
    "Ecl.RangeFinder.unconfigured_only_zero",
    "Ecl.RangeFinder.unconfigured_looks_up"
   ],
   "note": ""
  },
  {
   "property": "C09",
   "status": "proved",
   "theorems": [
    "Ecl.RangeFinder.stuck_never_healthy",
    "Ecl.RangeFinder.spread_releases",
    "Ecl.RangeFinder.first_sample_withheld"
   ],
   "note": ""
  },
  {
   "property": "C10",
   "status": "proved",
   "theorems": [
    "Ecl.RangeFinder.regular_iff",
    "Ecl.RangeFinder.lpf_bounded"
   ],
   "note": ""
  },
  {
   "property": "C62",
   "status": "proved",
   "theorems": [
    "Ecl.RangeFinder.boresight_down_component",
    "Ecl.RangeFinder.distBottom_is_vertical_component",
    "Ecl.RangeFinder.first_pitch_offset"
   ],
   "note": ""
  },
  {
   "property": "C11",
   "status": "proved",
   "theorems": [
    "Ecl.Interface.port_refines_thinned_queue",
    "Ecl.Interface.thin_pushes_accepted",
    "Ecl.Interface.accepted_sublist",
    "Ecl.Interface.accepted_gap",
    "Ecl.Interface.port_ignores"
   ],
   "note": "Time shift itself is C15."
  },
  {
   "property": "C12",
   "status": "proved",
   "theorems": [
    "Ecl.Interface.averager_means",
    "Ecl.Interface.groups_partition",
    "Ecl.Interface.averager_256_divides_by_zero",
    "Ecl.Interface.averager_long_group_wrong"
   ],
   "note": "Includes the negative part (256 samples)."
  },
  {
   "property": "C13",
   "status": "proved",
   "theorems": [
    "Ecl.Interface.maxDelay_isMax",
    "Ecl.Interface.bufferLengths_spec",
    "Ecl.Interface.bufferLengths_defined_iff",
    "Ecl.Interface.gps_delay_ignored_without_mask"
   ],
   "note": ""
  },
  {
   "property": "C14",
   "status": "proved",
   "theorems": [
    "Ecl.Interface.minObsInterval_defined_iff",
    "Ecl.Interface.minObsInterval_divides_by_zero",
    "Ecl.Interface.minObsInterval_empty"
   ],
   "note": "The unrestricted claim is refuted by a witness configuration."
  },
  {
   "property": "C15",
   "status": "proved",
   "theorems": [
    "Ecl.Interface.shift_error_le_ulp",
    "Ecl.Interface.shift_exact_small",
    "Ecl.Interface.shift_error_unbounded",
    "Ecl.Interface.shift_undefined_early"
   ],
   "note": "Delays restricted to whole microseconds representable as float."
  },
  {
   "property": "C16",
   "status": "proved",
   "theorems": [
    "Ecl.Interface.atRest_iff"
   ],
   "note": ""
  },
  {
   "property": "C17",
   "status": "proved",
   "theorems": [
    "Ecl.Interface.aiding_active_iff",
    "Ecl.Interface.only_source_iff"
   ],
   "note": ""
  },
  {
   "property": "C18",
   "status": "proved",
   "theorems": [
    "Ecl.Interface.imuAvg_bounds",
    "Ecl.Interface.imuAvg_stays",
    "Ecl.Interface.imuAvgStep_value",
    "Ecl.Interface.ekfAvg_bounds",
    "Ecl.Interface.ekfAvgStep_value"
   ],
   "note": ""
  },
  {
   "property": "C63",
   "status": "proved",
   "theorems": [
    "Ecl.Interface.biasVar_is_not_variance",
    "Ecl.Interface.biasOut_spec"
   ],
   "note": "Refutation."
  },
  {
   "property": "C64",
   "status": "proved",
   "theorems": [
    "Ecl.Interface.drag_groups"
   ],
   "note": ""
  },
  {
   "property": "C65",
   "status": "proved",
   "theorems": [
    "Ecl.Interface.vibe_is_lowpass",
    "Ecl.Interface.vibe_bounded"
   ],
   "note": ""
  },
  {
   "property": "C39",
   "status": "proved",
   "theorems": [
    "Ecl.Utils.taitBryan312_isRotation",
    "Ecl.Utils.taitBryan312_factors",
    "Ecl.Utils.quatToInverseRotMat_spec",
    "Ecl.Utils.yaw_extractors_agree",
    "Ecl.Utils.selected_sequence_regular",
    "Ecl.Utils.updateYaw_spec"
   ],
   "note": ""
  },
  {
   "property": "C40",
   "status": "proved",
   "theorems": [
    "Ecl.Utils.kahan_exact",
    "Ecl.Utils.kahan_compensates",
    "Ecl.Utils.kahanRun_exact"
   ],
   "note": ""
  },
  {
   "property": "C61",
   "status": "proved",
   "theorems": [
    "Ecl.Utils.powf_eq_zpow"
   ],
   "note": ""
  },
  {
   "property": "C21",
   "status": "proved",
   "theorems": [
    "Ecl.Ekf.resetHorizontalVelocityTo_spec",
    "Ecl.Ekf.resetVerticalVelocityTo_spec",
    "Ecl.Ekf.resetHorizontalPositionTo_spec",
    "Ecl.Ekf.resetVerticalPositionTo_spec",
    "Ecl.Ekf.counters_count",
    "Ecl.Ekf.published_jump",
    "Ecl.Ekf.vertNew_shift_iff"
   ],
   "note": "vertNew_shift_iff: the current alternative vertical position is the one quantity not shifted."
  },
  {
   "property": "C22",
   "status": "proved",
   "theorems": [
    "Ecl.Ekf.tracking_error_invariant"
   ],
   "note": ""
  },
  {
   "property": "C66",
   "status": "proved",
   "theorems": [
    "Ecl.Ekf.resetQuatStateYaw_spec",
    "Ecl.Ekf.quatOfDcm_spec",
    "Ecl.Ekf.quatLib"
   ],
   "note": "The conversions of the external vector library are hypotheses (QuatLib) of the reset theorem; quatLib proves them for the library algorithm as modelled (not part of /repo)."
  },
  {
   "property": "C67",
   "status": "proved",
   "theorems": [
    "Ecl.Ekf.alignOutputFilter_spec"
   ],
   "note": ""
  },
  {
   "property": "C23",
   "status": "proved",
   "theorems": [
    "Ecl.Ekf.constrainStates_within",
    "Ecl.Ekf.constrainStates_id",
    "Ecl.Ekf.constrainStates_nearest"
   ],
   "note": ""
  },
  {
   "property": "C68",
   "status": "proved",
   "theorems": [
    "Ecl.Ekf.predict_attitude",
    "Ecl.Ekf.predict_kinematics",
    "Ecl.Ekf.predict_others",
    "Ecl.Ekf.constant_acceleration_exact",
    "Ecl.Ekf.earthRate_spec"
   ],
   "note": "Axis-angle conversion is a library parameter."
  },
  {
   "property": "C69",
   "status": "proved",
   "theorems": [
    "Ecl.Ekf.initialiseTilt_spec"
   ],
   "note": ""
  },
  {
   "property": "C70",
   "status": "proved",
   "theorems": [
    "Ecl.Ekf.output_ins",
    "Ecl.Ekf.output_correct",
    "Ecl.Ekf.trackGain_range",
    "Ecl.Ekf.attCorrection_spec"
   ],
   "note": ""
  },
  {
   "property": "C71",
   "status": "proved",
   "theorems": [
    "Ecl.Ekf.applyVert_spec",
    "Ecl.Ekf.applyVert_single_slot"
   ],
   "note": ""
  },
  {
   "property": "C24",
   "status": "proved",
   "theorems": [
    "Ecl.Cov.kalman_update_valid",
    "Ecl.Cov.optimal_gain_accepted",
    "Ecl.Cov.optimal_update_valid"
   ],
   "note": ""
  },
  {
   "property": "C25",
   "status": "proved",
   "theorems": [
    "Ecl.Cov.checkAndFix_spec",
    "Ecl.Cov.measurementUpdate_spec"
   ],
   "note": ""
  },
  {
   "property": "C26",
   "status": "proved",
   "theorems": [
    "Ecl.Cov.fix_variance_limits",
    "Ecl.Cov.fix_accel_variance",
    "Ecl.Cov.accel_floor_exceeds_cap",
    "Ecl.Cov.fix_keeps_symmetry",
    "Ecl.Cov.fix_unused_zero",
    "Ecl.Cov.fix_forces_symmetry"
   ],
   "note": ""
  },
  {
   "property": "C58",
   "status": "proved",
   "theorems": [
    "Ecl.timeout_meaning",
    "Ecl.timeout_exclusive",
    "Ecl.timeout_wraps"
   ],
   "note": ""
  },
  {
   "property": "C60",
   "status": "proved",
   "theorems": [
    "Ecl.Cov.yaw_variance_increase",
    "Ecl.Cov.yaw_variance_increase_valid",
    "Ecl.Cov.yawDir_is_derivative"
   ],
   "note": ""
  },
  {
   "property": "C72",
   "status": "proved",
   "theorems": [
    "Ecl.Cov.inhibited_axis_can_invalidate"
   ],
   "note": "negative property"
  },
  {
   "property": "C73",
   "status": "proved",
   "theorems": [
    "Ecl.Cov.limiter_can_invalidate"
   ],
   "note": "negative property"
  },
  {
   "property": "C75",
   "status": "proved",
   "theorems": [
    "Ecl.Cov.resetWind_with_airspeed",
    "Ecl.Cov.resetWind_without_airspeed",
    "Ecl.Cov.resetWind_units",
    "Ecl.Cov.resetWind_valid",
    "Ecl.Fusion.wind_reset",
    "Ecl.Fusion.airspeed_after_reset"
   ],
   "note": ""
  },
  {
   "property": "C76",
   "status": "proved",
   "theorems": [
    "Ecl.Cov.mag_cov_round_trip",
    "Ecl.Cov.mag_cov_restart_valid",
    "Ecl.Cov.resetMagCov_spec",
    "Ecl.Cov.stopMag_spec"
   ],
   "note": ""
  },
  {
   "property": "C77",
   "status": "proved",
   "theorems": [
    "Ecl.Cov.inhibit_spec",
    "Ecl.Cov.inhibit_hold"
   ],
   "note": ""
  },
  {
   "property": "C78",
   "status": "proved",
   "theorems": [
    "Ecl.Cov.process_noise_stops",
    "Ecl.Cov.process_noise_values",
    "Ecl.Cov.process_noise_nonneg",
    "Ecl.Cov.imu_noise_values",
    "Ecl.Cov.heightRate_convex"
   ],
   "note": ""
  },
  {
   "property": "C79",
   "status": "proved",
   "theorems": [
    "Ecl.Cov.fix_keeps_valid",
    "Ecl.Cov.fix_within_limits",
    "Ecl.Cov.updates_keep_valid"
   ],
   "note": ""
  },
  {
   "property": "C74",
   "status": "proved",
   "theorems": [
    "Ecl.Cov.quatJac_is_derivative",
    "Ecl.Cov.rotVec_spec",
    "Ecl.Cov.quatBlock_eq",
    "Ecl.Cov.initQuatCov_spec",
    "Ecl.Cov.initQuatCov_valid",
    "Ecl.Cov.resetQuatCov_spec"
   ],
   "note": ""
  },
  {
   "property": "C80",
   "status": "proved",
   "theorems": [
    "Ecl.Cov.gpsHeightVariance_spec",
    "Ecl.Cov.init_spec",
    "Ecl.Cov.init_valid"
   ],
   "note": ""
  },
  {
   "property": "C81",
   "status": "proved",
   "theorems": [
    "Ecl.Cov.bias_reset_spec",
    "Ecl.Cov.resetMagBias_then_start"
   ],
   "note": ""
  },
  {
   "property": "C27",
   "status": "proved",
   "theorems": [
    "Ecl.Cov.covariance_prediction",
    "Ecl.Cov.accumulators_zero",
    "Ecl.Cov.matF_jacobian",
    "Ecl.Cov.matG_jacobian"
   ],
   "note": "Exact arithmetic; all 300 generated entries; Jacobians proved to be derivatives of the propagation model of the derivation script."
  },
  {
   "property": "C82",
   "status": "proved",
   "theorems": [
    "Ecl.Cov.prediction_valid",
    "Ecl.Cov.growth_stop_breaks_validity"
   ],
   "note": "Includes the negative part (growth stop)."
  },
  {
   "property": "C29",
   "status": "proved",
   "theorems": [
    "Ecl.Fusion.airspeed_fusion",
    "Ecl.Fusion.airspeed_gradient",
    "Ecl.Fusion.airspeedVar_range",
    "Ecl.Fusion.airspeed_always_fused",
    "Ecl.Fusion.airspeed_wind_only"
   ],
   "note": "Whole function incl. resets and flags."
  },
  {
   "property": "C30",
   "status": "proved",
   "theorems": [
    "Ecl.Fusion.sideslip_fusion",
    "Ecl.Fusion.sideslip_gradient",
    "Ecl.Fusion.sideslip_always_fused",
    "Ecl.Fusion.sideslip_gate_admits_zero_forward"
   ],
   "note": "Includes the negative part: the 7 m/s gate does not exclude zero forward speed."
  },
  {
   "property": "C32",
   "status": "proved",
   "theorems": [
    "Ecl.Fusion.drag_fusion",
    "Ecl.Fusion.dragX_gradient",
    "Ecl.Fusion.dragY_gradient",
    "Ecl.Fusion.drag_wind_only"
   ],
   "note": "The Y axis innovation uses the relative wind of the state before the X axis was fused (stated in drag_fusion)."
  },
  {
   "property": "C34",
   "status": "proved",
   "theorems": [
    "Ecl.Fusion.declination_fusion",
    "Ecl.Fusion.declination_gradient",
    "Ecl.Fusion.declination_aligned",
    "Ecl.Fusion.limitDeclination_spec",
    "Ecl.Fusion.limitDeclination_no_wrap",
    "Ecl.Fusion.declination_innovation_no_wrap",
    "Ecl.Fusion.magDeclination_spec"
   ],
   "note": "Negative part: neither the innovation nor the limiter wraps angles, so references near 180 degrees are mishandled."
  },
  {
   "property": "C28",
   "status": "proved",
   "theorems": [
    "Ecl.Fusion.mag_fusion",
    "Ecl.Fusion.mag_gradient",
    "Ecl.Fusion.mag_field_only"
   ],
   "note": "Whole function for a positive noise parameter (with zero noise the variance may be zero and is divided by)."
  },
  {
   "property": "C31",
   "status": "proved",
   "theorems": [
    "Ecl.Fusion.flow_fusion",
    "Ecl.Fusion.flowX_gradient",
    "Ecl.Fusion.flowY_gradient"
   ],
   "note": "Negative part in the statement: mixed gain of the second axis."
  },
  {
   "property": "C83",
   "status": "proved",
   "theorems": [
    "Ecl.Fusion.flow_variance"
   ],
   "note": ""
  },
  {
   "property": "C84",
   "status": "proved",
   "theorems": [
    "Ecl.Fusion.flow_rate_comp",
    "Ecl.Fusion.flow_bias_bounded",
    "Ecl.Fusion.flow_bias_of_perfect_gyro",
    "Ecl.Fusion.flow_bias_wrong",
    "Ecl.Fusion.flow_bias_at_rest"
   ],
   "note": ""
  },
  {
   "property": "C33",
   "status": "proved",
   "theorems": [
    "Ecl.Fusion.gpsYaw_gradient",
    "Ecl.Fusion.gpsYaw_fusion",
    "Ecl.Fusion.gpsYaw_blind_east",
    "Ecl.Fusion.yawGrad_gradient",
    "Ecl.Fusion.yaw_fusion",
    "Ecl.Fusion.yaw_selected_observable",
    "Ecl.Fusion.yaw_path_choice"
   ],
   "note": "Gradient off the branch cut (heading exactly south). Findings: GPS yaw ignored when the antenna baseline is within 1e-3 of east/west (gpsYaw_blind_east); of two usable yaw paths the code picks the worse-conditioned one (yaw_path_choice)."
  },
  {
   "property": "C85",
   "status": "proved",
   "theorems": [
    "Ecl.Fusion.heading_spec",
    "Ecl.Fusion.magHeading_exact",
    "Ecl.Fusion.yaw_removed",
    "Ecl.Fusion.heading_inhibit_ineffective"
   ],
   "note": "heading_inhibit_ineffective refutes the intended effect of yaw fusion inhibition."
  },
  {
   "property": "C86",
   "status": "proved",
   "theorems": [
    "Ecl.Fusion.syntheticMagZ_exact",
    "Ecl.Fusion.syntheticMagZ_spec"
   ],
   "note": ""
  },
  {
   "property": "C87",
   "status": "proved",
   "theorems": [
    "Ecl.Fusion.yaw_corrects_all_bias",
    "Ecl.Fusion.yaw_moves_inhibited_bias",
    "Ecl.Fusion.direct_observation_corrects_inhibited"
   ],
   "note": "Finding: updateQuaternion and fuseVelPosHeight do not mask inhibited accelerometer bias axes."
  },
  {
   "property": "C35",
   "status": "proved",
   "theorems": [
    "Ecl.Fusion.hvel_gate",
    "Ecl.Fusion.hpos_gate",
    "Ecl.Fusion.vvel_gate",
    "Ecl.Fusion.vpos_gate",
    "Ecl.Fusion.direct_observation_residual"
   ],
   "note": "exact gates and effects, exact reals; innovations beyond 100 standard deviations under an inhibited gate are ignored without setting the rejection flag; both axes use innovations and variances computed before the first axis was fused"
  },
  {
   "property": "C36",
   "status": "proved",
   "theorems": [
    "Ecl.Fusion.NaN.both_nan",
    "Ecl.Fusion.NaN.one_nan_fused",
    "Ecl.Fusion.NaN.inhibited_gate_fuses_nan",
    "Ecl.Fusion.NaN.nan_fusion_destroys_state",
    "Ecl.Fusion.NaN.vertical_nan",
    "Ecl.Fusion.NaN.hvelFused_finite",
    "Ecl.Fusion.NaN.hposFused_finite",
    "Ecl.Fusion.NaN.vertical_finite"
   ],
   "note": "refuted for one NaN axis (fmaxf) and for inhibited gates; NaN as a separate value, infinities not modelled"
  },
  {
   "property": "C56",
   "status": "proved",
   "theorems": [
    "Ecl.Status.fault_word",
    "Ecl.Status.last_flags_invisible",
    "Ecl.Status.soln_bits",
    "Ecl.Status.soln_upper_bits"
   ],
   "note": "includes the refutations; bit field layout LSB first, little endian"
  },
  {
   "property": "C88",
   "status": "proved",
   "theorems": [
    "Ecl.Status.rejection_bits_shifted",
    "Ecl.Status.passing_mag_hides_height_rejection"
   ],
   "note": "refuted"
  },
  {
   "property": "C57",
   "status": "proved",
   "theorems": [
    "Ecl.Status.dr_flags",
    "Ecl.Status.dr_exclusive",
    "Ecl.Status.dr_exceeded_initially",
    "Ecl.Status.dr_history",
    "Ecl.Status.dr_aided_valid",
    "Ecl.Status.dr_zero_marker",
    "Ecl.Status.dr_fresh"
   ],
   "note": "all histories; times below 2^62; finding dr_zero_marker"
  },
  {
   "property": "C89",
   "status": "proved",
   "theorems": [
    "Ecl.Status.lpos_accuracy",
    "Ecl.Status.gpos_accuracy",
    "Ecl.Status.global_not_better",
    "Ecl.Status.exceeded_implies_dr",
    "Ecl.Status.vel_accuracy"
   ],
   "note": "the velocity accuracy uses the GPS/vision position innovation (metres) as a velocity error indicator, as the code does"
  },
  {
   "property": "C90",
   "status": "proved",
   "theorems": [
    "Ecl.Status.ctrl_limits"
   ],
   "note": ""
  },
  {
   "property": "C91",
   "status": "proved",
   "theorems": [
    "Ecl.Status.test_ratio_meaning",
    "Ecl.Status.test_ratio_values"
   ],
   "note": ""
  },
  {
   "property": "C19",
   "status": "proved",
   "theorems": [
    "Ecl.Control.at_most_one_source",
    "Ecl.Control.exactly_one_source",
    "Ecl.Control.init_one"
   ],
   "note": "EKF/control.cpp height control and timeouts modelled completely"
  },
  {
   "property": "C20",
   "status": "proved",
   "theorems": [
    "Ecl.Control.gps_height_trap",
    "Ecl.Control.stop_gps_no_source",
    "Ecl.Control.trap_reachable",
    "Ecl.Control.trap_exit"
   ],
   "note": "finding: the state without height source is permanent"
  },
  {
   "property": "C92",
   "status": "proved",
   "theorems": [
    "Ecl.Control.select_baro_primary",
    "Ecl.Control.select_range_primary",
    "Ecl.Control.select_gps_primary",
    "Ecl.Control.select_ev_primary",
    "Ecl.Control.stale_vision_fused"
   ],
   "note": "finding: stale vision height is fused at every step"
  },
  {
   "property": "C93",
   "status": "proved",
   "theorems": [
    "Ecl.Control.height_observation",
    "Ecl.Control.ground_effect_deadzone",
    "Ecl.Control.gps_switch_no_step",
    "Ecl.Control.range_switch_no_step",
    "Ecl.Control.controlHeight_fused",
    "Ecl.Control.baro_offset_tracking",
    "Ecl.Control.baro_offset_kept",
    "Ecl.Control.ground_effect_expiry",
    "Ecl.Control.ground_effect_stays_in_fallback"
   ],
   "note": ""
  },
  {
   "property": "C94",
   "status": "proved",
   "theorems": [
    "Ecl.Control.height_timeout_when",
    "Ecl.Control.height_timeout_source",
    "Ecl.Control.reset_height_values",
    "Ecl.Control.height_timeout_fault"
   ],
   "note": ""
  },
  {
   "property": "C95",
   "status": "proved",
   "theorems": [
    "Ecl.Control.baro_timeout_switch_undone"
   ],
   "note": "finding"
  },
  {
   "property": "C37",
   "status": "proved",
   "theorems": [
    "Ecl.Gps.gps_good_iff",
    "Ecl.Gps.check_flags",
    "Ecl.Gps.fail_immediate",
    "Ecl.Gps.gps_good_now"
   ],
   "note": "all ten checks of EKF/gps_checks.cpp modelled; exact arithmetic, geo projection abstract"
  },
  {
   "property": "C38",
   "status": "proved",
   "theorems": [
    "Ecl.Gps.origin_never_moves",
    "Ecl.Gps.origin_set_iff",
    "Ecl.Gps.origin_values",
    "Ecl.Gps.origin_history",
    "Ecl.Gps.collected_iff"
   ],
   "note": ""
  },
  {
   "property": "C96",
   "status": "proved",
   "theorems": [
    "Ecl.Gps.drift_bounded",
    "Ecl.Gps.steady_drift",
    "Ecl.Gps.quiet_passes",
    "Ecl.Gps.error_norm"
   ],
   "note": ""
  },
  {
   "property": "C97",
   "status": "proved",
   "theorems": [
    "Ecl.Gps.fix_check_never_fails",
    "Ecl.Gps.outage_invisible",
    "Ecl.Gps.outage_no_restart"
   ],
   "note": "finding"
  },
  {
   "property": "C98",
   "status": "proved",
   "theorems": [
    "Ecl.Gps.set_origin_same_point",
    "Ecl.Gps.commanded_altitude_overwritten"
   ],
   "note": "finding: commanded altitude overwritten; projection abstract with reproject\u2218project = id as hypothesis"
  },
  {
   "property": "C41",
   "status": "proved",
   "theorems": [
    "Ecl.Geo.project_spec",
    "Ecl.Geo.reproject_spec",
    "Ecl.Geo.project_reproject",
    "Ecl.Geo.reproject_project",
    "Ecl.Geo.project_self"
   ],
   "note": "Exact spherical geometry over the reals."
  },
  {
   "property": "C42",
   "status": "proved",
   "theorems": [
    "Ecl.Geo.projection_needs_init",
    "Ecl.Geo.projection_init"
   ],
   "note": ""
  },
  {
   "property": "C43",
   "status": "proved",
   "theorems": [
    "Ecl.Geo.distance_eq",
    "Ecl.Geo.distance_metric",
    "Ecl.Geo.projected_distance"
   ],
   "note": ""
  },
  {
   "property": "C44",
   "status": "proved",
   "theorems": [
    "Ecl.Geo.bearing_spec",
    "Ecl.Geo.waypoint_spec",
    "Ecl.Geo.waypoint_distance",
    "Ecl.Geo.waypointFromLine_spec"
   ],
   "note": ""
  },
  {
   "property": "C45",
   "status": "proved",
   "theorems": [
    "Ecl.Geo.fast_inverse",
    "Ecl.Geo.fast_inverse'"
   ],
   "note": ""
  },
  {
   "property": "C99",
   "status": "proved",
   "theorems": [
    "Ecl.Geo.distanceToLine_spec",
    "Ecl.Geo.vectorTo_spec",
    "Ecl.Geo.distance3_spec",
    "Ecl.Geo.distanceLocal_spec",
    "Ecl.Geo.distanceToLine_on_track_past_end"
   ],
   "note": "The track bearing is taken at the start point, so on a long track a point on the track can be reported as past its end (theorem)."
  },
  {
   "property": "C100",
   "status": "proved",
   "theorems": [
    "Ecl.Geo.distanceToArc_spec",
    "Ecl.Geo.arc_wrong_side",
    "Ecl.Geo.arc_not_on_arc",
    "Ecl.Geo.arc_in_sector",
    "Ecl.Geo.arc_outside_sector",
    "Ecl.Geo.arc_outside_ignores_centre",
    "Ecl.Geo.arc_west_never_in_sector",
    "Ecl.Geo.arc_negative_sweep_sector"
   ],
   "note": "Exact contract of the code in every case, and theorems refuting the documented contract (nearest point of the arc): the sector test uses the bearing from the position to the centre instead of the reverse, the start and end points are displaced from the position instead of the centre so that outside the sector the result does not depend on the centre, arcs in the western half plane contain nothing, a negative sweep tests the wrong sector."
  },
  {
   "property": "C46",
   "status": "proved",
   "theorems": [
    "Ecl.GeoLookup.lookup_total",
    "Ecl.GeoLookup.lookup_out_of_range",
    "Ecl.GeoLookup.lookup_values"
   ],
   "note": "Longitudes beyond +-540 degrees are clamped to the date line rather than reduced (theorem)."
  },
  {
   "property": "C47",
   "status": "proved",
   "theorems": [
    "Ecl.GeoLookup.lookup_bilinear",
    "Ecl.GeoLookup.lookup_node",
    "Ecl.GeoLookup.lookup_date_line",
    "Ecl.GeoLookup.declination_wrap_error"
   ],
   "note": "Exact and continuous as numbers; because declination is interpolated as a number the result near the magnetic pole is wrong as an angle (counterexample theorem)."
  },
  {
   "property": "C48",
   "status": "proved",
   "theorems": [
    "Ecl.Terrain.prediction_grows",
    "Ecl.Terrain.fuseHagl_spec",
    "Ecl.Terrain.run_ground",
    "Ecl.Terrain.run_init",
    "Ecl.Terrain.run_air",
    "Ecl.Terrain.var_history",
    "Ecl.Terrain.reset_repeats"
   ],
   "note": "Finding: the reset after 10 s of rejections does not restart the timer, so it repeats with every further rejected sample."
  },
  {
   "property": "C49",
   "status": "proved",
   "theorems": [
    "Ecl.Terrain.validity_spec",
    "Ecl.Terrain.valid_history",
    "Ecl.Terrain.valid_without_sensor",
    "Ecl.Terrain.flow_init_claims_range"
   ],
   "note": "The literal claim needs on-ground resets and initialisations to count as information: findings show validity without any sensor for 5 s after take-off, and flow initialisation reported as range finder data."
  },
  {
   "property": "C101",
   "status": "proved",
   "theorems": [
    "Ecl.Terrain.fuseFlow_spec",
    "Ecl.Terrain.flow_event",
    "Ecl.Terrain.flowReadiness_spec",
    "Ecl.Terrain.flowReadiness_iff"
   ],
   "note": ""
  },
  {
   "property": "C50",
   "status": "proved",
   "theorems": [
    "Ecl.Wind.always_valid",
    "Ecl.Wind.limits_after_fusion",
    "Ecl.Wind.limits_not_always",
    "Ecl.Wind.limit_breaks_covariance"
   ],
   "note": "The caps hold right after accepted measurements only (limits_not_always); capping can destroy positive semi-definiteness (limit_breaks_covariance)."
  },
  {
   "property": "C51",
   "status": "proved",
   "theorems": [
    "Ecl.Wind.prediction_at_most_1Hz",
    "Ecl.Wind.airspeed_at_most_10Hz",
    "Ecl.Wind.sideslip_at_most_10Hz",
    "Ecl.Wind.restart_by_airspeed",
    "Ecl.Wind.restart_by_sideslip",
    "Ecl.Wind.reset_cleared",
    "Ecl.Wind.update_cases",
    "Ecl.Wind.time_backwards"
   ],
   "note": "time_backwards: a stamp going back passes the unsigned gate."
  },
  {
   "property": "C102",
   "status": "proved",
   "theorems": [
    "Ecl.Wind.airspeed_gradient",
    "Ecl.Wind.sideslip_gradient",
    "Ecl.Wind.airspeed_fusion",
    "Ecl.Wind.sideslip_fusion",
    "Ecl.Wind.accepted_consistent",
    "Ecl.Wind.zero_airspeed_drops_estimate",
    "Ecl.Wind.tuning_in_force"
   ],
   "note": ""
  },
  {
   "property": "C103",
   "status": "proved",
   "theorems": [
    "Ecl.Wind.initial_wind",
    "Ecl.Wind.initial_covariance_not_jacobian",
    "Ecl.Wind.prediction",
    "Ecl.Wind.prediction_psd",
    "Ecl.Wind.growth_depends_on_rate"
   ],
   "note": "initial_covariance_not_jacobian, the north-east part of prediction and growth_depends_on_rate are findings."
  },
  {
   "property": "C52",
   "status": "proved",
   "theorems": [
    "Ecl.Gsf.weights_distribution",
    "Ecl.Gsf.published",
    "Ecl.Gsf.bayes",
    "Ecl.Gsf.bayes_clipped",
    "Ecl.Gsf.collapse",
    "Ecl.Gsf.availability",
    "Ecl.Gsf.start_variance",
    "Ecl.Gsf.density_spec"
   ],
   "note": ""
  },
  {
   "property": "C53",
   "status": "proved",
   "theorems": [
    "Ecl.Gsf.transition_jacobian",
    "Ecl.Gsf.predictP_eq",
    "Ecl.Gsf.prediction",
    "Ecl.Gsf.updGen_eq",
    "Ecl.Gsf.update_spec",
    "Ecl.Gsf.yawRot_spec",
    "Ecl.Gsf.covariance_valid"
   ],
   "note": "P is symmetric in every reachable state (covariance_valid)"
  },
  {
   "property": "C54",
   "status": "proved",
   "theorems": [
    "Ecl.Gsf.accelGain_range",
    "Ecl.Gsf.newBias_range",
    "Ecl.Gsf.newBias_step",
    "Ecl.Gsf.bias_bounded",
    "Ecl.Gsf.bias_copied_unlimited",
    "Ecl.Gsf.covariance_valid"
   ],
   "note": "the bias limit holds when the main filter's bias is within the limit; bias_copied_unlimited is the counterexample otherwise"
  },
  {
   "property": "C104",
   "status": "proved",
   "theorems": [
    "Ecl.Gsf.tiltMat_spec",
    "Ecl.Gsf.tilt_degenerate",
    "Ecl.Gsf.rotRow_spec",
    "Ecl.Gsf.predict_row_length",
    "Ecl.Gsf.predict_still",
    "Ecl.Gsf.correction_direction",
    "Ecl.Gsf.tiltCorr_spec",
    "Ecl.Gsf.bank_covers",
    "Ecl.Gsf.start_attitudes",
    "Ecl.Gsf.consensus",
    "Ecl.Gsf.align_iff",
    "Ecl.Gsf.filtAcc_convex",
    "Ecl.Gsf.attitude_increment",
    "Ecl.Gsf.rest_keeps_attitude",
    "Ecl.Gsf.heading_read",
    "Ecl.Gsf.velocity_used"
   ],
   "note": "tilt_degenerate: specific force along body X divides 0 by 0 in the code"
  },
  {
   "property": "C55",
   "status": "proved",
   "theorems": [
    "Ecl.Aid.modes_exclusive",
    "Ecl.Aid.disabled_never_used",
    "Ecl.Aid.fault_permanent",
    "Ecl.Aid.fault_never_used",
    "Ecl.Aid.mode_selected",
    "Ecl.Aid.check3D_spec",
    "Ecl.Aid.disturbed_3D_fused",
    "Ecl.Aid.declination_flag_left",
    "Ecl.Aid.switched_to_none"
   ],
   "note": "histories of the whole aiding control step; the last three are findings"
  },
  {
   "property": "C59",
   "status": "proved",
   "theorems": [
    "Ecl.Aid.resets_limited",
    "Ecl.Aid.reset_conditions",
    "Ecl.Aid.resets_spaced",
    "Ecl.Aid.uncounted_unlimited",
    "Ecl.Aid.limit_above_255_ignored",
    "Ecl.Aid.origin_breaks_spacing"
   ],
   "note": "last three are refutations of the unrestricted claim"
  },
  {
   "property": "C105",
   "status": "proved",
   "theorems": [
    "Ecl.Aid.indoor_never_aligns",
    "Ecl.Aid.other_types_align"
   ],
   "note": "finding"
  },
  {
   "property": "C106",
   "status": "proved",
   "theorems": [
    "Ecl.Aid.gps_yaw_start",
    "Ecl.Aid.gps_yaw_faulty_forever",
    "Ecl.Aid.gps_yaw_timeout",
    "Ecl.Aid.vision_and_gps_yaw"
   ],
   "note": "vision_and_gps_yaw is a finding"
  },
  {
   "property": "C107",
   "status": "proved",
   "theorems": [
    "Ecl.Aid.healthy_gps_times_out",
    "Ecl.Aid.accepted_position_restarts_timer"
   ],
   "note": "healthy_gps_times_out is the refutation"
  },
  {
   "property": "C108",
   "status": "proved",
   "theorems": [
    "Ecl.Aid.gps_start_conditions",
    "Ecl.Aid.gps_starts",
    "Ecl.Aid.gps_stop_reasons",
    "Ecl.Aid.gps_stops",
    "Ecl.Aid.vision_yaw_lost"
   ],
   "note": ""
  },
  {
   "property": "C109",
   "status": "proved",
   "theorems": [
    "Ecl.Aid.ev_pos_start",
    "Ecl.Aid.ev_stop",
    "Ecl.Aid.first_odometry_sample_zero_variance",
    "Ecl.Aid.reset_forgets_previous"
   ],
   "note": ""
  },
  {
   "property": "C110",
   "status": "proved",
   "theorems": [
    "Ecl.Aid.synthetic_iff",
    "Ecl.Aid.synthetic_fusion"
   ],
   "note": ""
  },
  {
   "property": "C111",
   "status": "proved",
   "theorems": [
    "Ecl.Aid.flow_start_conditions",
    "Ecl.Aid.flow_starts",
    "Ecl.Aid.flow_stop_iff",
    "Ecl.Aid.flow_fused_conditions",
    "Ecl.Aid.flowInhibit_iff"
   ],
   "note": ""
  },
  {
   "property": "C112",
   "status": "proved",
   "theorems": [
    "Ecl.Aid.wind_start",
    "Ecl.Aid.wind_stop",
    "Ecl.Aid.airspeed_flag",
    "Ecl.Aid.drag_keeps_wind",
    "Ecl.Aid.sideslip_conditions",
    "Ecl.Aid.drag_conditions",
    "Ecl.Aid.aux_conditions"
   ],
   "note": ""
  },
  {
   "property": "C113",
   "status": "proved",
   "theorems": [
    "Ecl.Gps.isGood_drift",
    "Ecl.Gps.report_fresh_iff",
    "Ecl.Gps.report_values",
    "Ecl.Gps.report_fresh_but_old",
    "Ecl.Gps.fresh_checks"
   ],
   "note": "On the ground in motion old values are marked as updated (theorem)."
  },
  {
   "property": "C114",
   "status": "proved",
   "theorems": [
    "Ecl.Aid.Numeric.disturbed_iff",
    "Ecl.Aid.Numeric.disturbed_rotation",
    "Ecl.Aid.Numeric.disturbed_unknown_reference",
    "Ecl.Aid.Numeric.yawObservable_iff",
    "Ecl.Aid.Numeric.biasObservable_iff",
    "Ecl.Aid.Numeric.lastSuitable",
    "Ecl.Aid.Numeric.check3D_numeric",
    "Ecl.Aid.Numeric.auto_mode_choice"
   ],
   "note": ""
  },
  {
   "property": "C115",
   "status": "proved",
   "theorems": [
    "Ecl.Gps.rough_fix",
    "Ecl.Gps.origin_has_reference",
    "Ecl.Gps.stored_position",
    "Ecl.Gps.early_sample_misplaced"
   ],
   "note": "Finding (early_sample_misplaced): a sample buffered just before the origin is set keeps position (0,0) although the vehicle's projected position is different; it is fused later with that position."
  },
  {
   "property": "C116",
   "status": "proved",
   "theorems": [
    "Ecl.Yaw.updateYaw_turns",
    "Ecl.Yaw.yaw_reset",
    "Ecl.Yaw.yaw_reset_cov",
    "Ecl.Yaw.declination_spec",
    "Ecl.Yaw.compass_reset",
    "Ecl.Yaw.no_second_reset",
    "Ecl.Yaw.no_heading_source",
    "Ecl.Yaw.vision_reset",
    "Ecl.Yaw.vision_start",
    "Ecl.Yaw.vision_reset_disturbs",
    "Ecl.Yaw.vision_start_disturbs",
    "Ecl.Yaw.vision_start_outputs"
   ],
   "note": "Findings: resetMagHeading reads the vision yaw with the 312 sequence, startEvYawFusion with the 321 sequence, while the reset writes it with whichever sequence suits the tilt: a vision attitude identical to the filter's then changes the attitude. The conversions of the external matrix library are modelled (Shepperd) and proved to meet the assumptions (Ecl.Ekf.quatLib)."
  },
  {
   "property": "C117",
   "status": "proved",
   "theorems": [
    "Ecl.Yaw.course_unusable",
    "Ecl.Yaw.course_first",
    "Ecl.Yaw.course_later",
    "Ecl.Yaw.course_states",
    "Ecl.Yaw.course_agrees",
    "Ecl.Yaw.course_uncertainty",
    "Ecl.Yaw.course_cov",
    "Ecl.Yaw.gsf_reset",
    "Ecl.Yaw.course_first_disturbs",
    "Ecl.Yaw.realign_matches"
   ],
   "note": "Findings: the course variance (up to (\u03c0/2)\u00b2 rad\u00b2) is silently limited to 0.01 rad\u00b2 and added to, not put in place of, the old heading variance (course_cov); for attitudes using the 312 sequence the first alignment turns the attitude even if the courses agree (course_first_disturbs). realign_matches links the numbers to the control logic model."
  },
  {
   "property": "C118",
   "status": "proved",
   "theorems": [
    "Ecl.VertAccel.falling_iff",
    "Ecl.VertAccel.independent_iff",
    "Ecl.VertAccel.clip_bounded",
    "Ecl.VertAccel.clip_evidence",
    "Ecl.VertAccel.clip_majority_seen",
    "Ecl.VertAccel.clip_forgotten",
    "Ecl.VertAccel.fault_iff_recent_evidence",
    "Ecl.VertAccel.continuous_bad_iff",
    "Ecl.VertAccel.one_clipped_sample_suffices",
    "Ecl.VertAccel.old_clipping_counts",
    "Ecl.VertAccel.nan_is_healthy"
   ],
   "note": "`_bad_vert_accel_detected`, which would limit instead of reject vertical innovations, is never assigned in the code base, so that branch of the fusion (C28, C29) is dead."
  },
  {
   "property": "C119",
   "status": "proved",
   "theorems": [
    "Ecl.RangeAid.check_iff",
    "Ecl.RangeAid.start_stay",
    "Ecl.RangeAid.suitable_iff",
    "Ecl.RangeAid.band_keeps",
    "Ecl.RangeAid.suitable_now",
    "Ecl.RangeAid.variance_boundary"
   ],
   "note": "exact rationals; 0.7f and 0.01f taken as 7/10 and 1/100"
  },
  {
   "property": "C120",
   "status": "proved",
   "theorems": [
    "Ecl.Baro.compensate_value",
    "Ecl.Baro.axis_bound",
    "Ecl.Baro.compensate_bounded",
    "Ecl.Baro.compensate_off",
    "Ecl.Baro.compensate_frame",
    "Ecl.Baro.axis_continuous"
   ],
   "note": "real arithmetic; density zero gives 0/0 in the code and is excluded by hypothesis"
  },
  {
   "property": "C121",
   "status": "proved",
   "theorems": [
    "Ecl.Fusion.flow_admission",
    "Ecl.Fusion.flow_interval",
    "Ecl.Fusion.flow_accumulators",
    "Ecl.Fusion.nan_flow_admitted",
    "Ecl.Fusion.no_limit_no_flow"
   ],
   "note": "real arithmetic with explicit NaN for the flow and non-finite gyro"
  },
  {
   "property": "C122",
   "status": "proved",
   "theorems": [
    "Ecl.Meas.velocity_reset",
    "Ecl.Meas.reset_valid",
    "Ecl.Meas.unhealthy_gps_stops",
    "Ecl.Meas.flow_reset_unbounded"
   ],
   "note": ""
  },
  {
   "property": "C123",
   "status": "proved",
   "theorems": [
    "Ecl.Meas.position_reset",
    "Ecl.Meas.reset_valid"
   ],
   "note": ""
  },
  {
   "property": "C124",
   "status": "proved",
   "theorems": [
    "Ecl.Meas.vision_alignment",
    "Ecl.Meas.vision_alignment_stale",
    "Ecl.Meas.vision_velocity",
    "Ecl.Meas.vision_velocity_variance",
    "Ecl.Meas.vision_position",
    "Ecl.Meas.vision_odometry",
    "Ecl.Meas.vision_position_noise",
    "Ecl.Meas.vision_reset_stale",
    "Ecl.Meas.vision_position_fused"
   ],
   "note": ""
  },
  {
   "property": "C125",
   "status": "proved",
   "theorems": [
    "Ecl.Meas.gps_lever_arm",
    "Ecl.Meas.gps_noise",
    "Ecl.Meas.gps_gates",
    "Ecl.Meas.lever_bias_bound",
    "Ecl.Meas.gps_reset_offset",
    "Ecl.Meas.point_velocity"
   ],
   "note": ""
  },
  {
   "property": "C126",
   "status": "proved",
   "theorems": [
    "Ecl.Meas.yaw_failure_iff",
    "Ecl.Meas.yaw_failure_heading_error"
   ],
   "note": ""
  },
  {
   "property": "C127",
   "status": "proved",
   "theorems": [
    "Ecl.Meas.synthetic_start",
    "Ecl.Meas.synthetic_noise",
    "Ecl.Meas.synthetic_hold",
    "Ecl.Meas.aux_velocity",
    "Ecl.Meas.aux_variance_stale"
   ],
   "note": ""
  },
  {
   "property": "C128",
   "status": "proved",
   "theorems": [
    "Ecl.Meas.motion_excessive_iff",
    "Ecl.Meas.motion_memory",
    "Ecl.Meas.motion_in_control"
   ],
   "note": ""
  },
  {
   "property": "C129",
   "status": "proved",
   "theorems": [
    "Ecl.Gsf.main_calls",
    "Ecl.Gsf.accuracy_is_vertical",
    "Ecl.Gsf.old_airspeed_used"
   ],
   "note": ""
  },
  {
   "property": "C130",
   "status": "proved",
   "theorems": [
    "Ecl.Meas.published_body_origin",
    "Ecl.Meas.lever_arm_velocity",
    "Ecl.Meas.yaw_rate_filter"
   ],
   "note": ""
  },
  {
   "property": "C131",
   "status": "proved",
   "theorems": [
    "Ecl.Cov.rotVec_projection",
    "Ecl.Cov.rotComp_deriv",
    "Ecl.Cov.rotVec_nonneg",
    "Ecl.Cov.rotVec_sign",
    "Ecl.Cov.rotVec_identity",
    "Ecl.Cov.rotVec_bounds"
   ],
   "note": ""
  },
  {
   "property": "C132",
   "status": "proved",
   "theorems": [
    "Ecl.Boot.init_core",
    "Ecl.Boot.update_core",
    "Ecl.Boot.initialised_has_data",
    "Ecl.Boot.initialised_at_rest",
    "Ecl.Boot.startup_safe"
   ],
   "note": "IMU down-sampling result and sensor samples popped from the buffers are inputs; the running filter is an arbitrary function that keeps the output buffer readable."
  },
  {
   "property": "C133",
   "status": "proved",
   "theorems": [
    "Ecl.Boot.update_returns",
    "Ecl.Boot.update_twice",
    "Ecl.Boot.uninitialised_update"
   ],
   "note": "update_twice: finding."
  },
  {
   "property": "C134",
   "status": "proved",
   "theorems": [
    "Ecl.Boot.initial_state",
    "Ecl.Boot.initial_covariance",
    "Ecl.Boot.initial_terrain"
   ],
   "note": ""
  },
  {
   "property": "C135",
   "status": "proved",
   "theorems": [
    "Ecl.Boot.reset_stops",
    "Ecl.Boot.reset_reinitialises",
    "Ecl.Boot.reset_false_alignment"
   ],
   "note": "the last two are findings: the intended property (a reset filter starts like a new one) is false."
  },
  {
   "property": "C136",
   "status": "proved",
   "theorems": [
    "Ecl.Boot.initial_averages",
    "Ecl.Boot.average_range",
    "Ecl.Boot.initial_imu_averages"
   ],
   "note": ""
  },
  {
   "property": "C137",
   "status": "proved",
   "theorems": [
    "Ecl.Whole.covariance_sane",
    "Ecl.Whole.variances_limited",
    "Ecl.Whole.negative_vision_variance",
    "Ecl.Whole.resetHeight_agrees",
    "Ecl.Whole.reset_leaves",
    "Ecl.Whole.predict_leaves",
    "Ecl.Whole.powerOn_is_reset",
    "Ecl.Whole.predict_inhibits"
   ],
   "note": "every writer of the covariance is a step; the control logic that chooses the order is over-approximated by any order"
  },
  {
   "property": "C138",
   "status": "proved",
   "theorems": [
    "Ecl.Whole.attitude_unit",
    "Ecl.Whole.states_limited"
   ],
   "note": "conversion between matrices and quaternions assumed mathematical for yaw resets (shown for the standard formula)"
  },
  {
   "property": "C139",
   "status": "proved",
   "theorems": [
    "Ecl.Whole.perfect_step",
    "Ecl.Whole.perfect_history",
    "Ecl.Whole.perfect_data"
   ],
   "note": "Spec.Fits states what a fitting measurement is; Spec.truth is the true motion, Spec.TrueLog a log of it."
  },
  {
   "property": "C140",
   "status": "proved",
   "theorems": [
    "Ecl.Whole.covariance_valid",
    "Ecl.Whole.wind_only_airspeed_indefinite",
    "Ecl.Whole.flow_indefinite",
    "Ecl.Whole.valid_step",
    "Ecl.Whole.psd_predictCovariance",
    "Ecl.Whole.good_fuseMag",
    "Ecl.Whole.good_fuseDeclination",
    "Ecl.Whole.good_fuseGpsYaw",
    "Ecl.Whole.good_fuseAirspeed",
    "Ecl.Whole.good_fuseSideslip",
    "Ecl.Whole.good_fuseHeading",
    "Ecl.Whole.good_velpos",
    "Ecl.Whole.exReg_ok"
   ],
   "note": "The limits of regularity are explicit hypotheses (Spec.Regular, Spec.BelowLimits); a non-trivial history meeting them is exReg; the refutations show that two of the restrictions are needed."
  },
  {
   "property": "C141",
   "status": "proved",
   "theorems": [
    "Ecl.Fp.update_variances_float",
    "Ecl.Fp.update_refused_float",
    "Ecl.Fp.predict_variances_float",
    "Ecl.Fp.update_symmetric_float",
    "Ecl.Fp.predict_symmetric_float",
    "Ecl.Fp.update_exact",
    "Ecl.Fp.fix_exact",
    "Ecl.Fp.binary32_rounding"
   ],
   "note": "Covers the conditioning code operation by operation; the values computed before it (KHP, next covariance) are arbitrary floats."
  },
  {
   "property": "C142",
   "status": "proved",
   "theorems": [
    "Ecl.Fp.attitude_unit_float",
    "Ecl.Fp.normalize_unit",
    "Ecl.Fp.mul_exact",
    "Ecl.Fp.normalize_exact",
    "Ecl.Fp.binary32_single"
   ],
   "note": ""
  },
  {
   "property": "C143",
   "status": "proved",
   "theorems": [
    "Ecl.Fp.states_limited_float",
    "Ecl.Fp.update_nan_stays",
    "Ecl.Fp.nan_stays"
   ],
   "note": ""
  },
  {
   "property": "C144",
   "status": "proved",
   "theorems": [
    "Ecl.Fp.dt_average_float",
    "Ecl.Fp.dt_start",
    "Ecl.Fp.weights_float",
    "Ecl.Fp.weights_from_start"
   ],
   "note": ""
  },
  {
   "property": "C145",
   "status": "proved",
   "theorems": [
    "Ecl.Fusion.vertical_velocity_honest",
    "Ecl.Fusion.vertical_position_honest",
    "Ecl.Fusion.horizontal_velocity_honest",
    "Ecl.Fusion.horizontal_position_honest",
    "Ecl.Fusion.pair_conservative",
    "Ecl.Fusion.partial_update_crosscovariance",
    "Ecl.Fusion.stale_innovation_overconfident",
    "Ecl.Fusion.mag_overconfident",
    "Ecl.Fusion.mag_variance_too_small",
    "Ecl.Fusion.gps_position_overconfident",
    "Ecl.Fusion.gps_variance_too_small"
   ],
   "note": "exact for velocity and position fusion; refuted for magnetometer fusion and for a whole GPS sample with the exact excess and a witness; for partial corrections the exact deviation. Quaternion entries excluded."
  },
  {
   "property": "C146",
   "status": "proved",
   "theorems": [
    "Ecl.Interface.buffer_delivers_due",
    "Ecl.Interface.buffer_delivers_all",
    "Ecl.Interface.port_delivers_due",
    "Ecl.Interface.rate_limit_window",
    "Ecl.Interface.long_step_loses_sample",
    "Ecl.Interface.stale_sample_never_delivered",
    "Ecl.Interface.startup_overwrites_accepted"
   ],
   "note": "specification keeps everything for ever; the comment's guarantee at estimator_interface.cpp:80 is refuted for the start-up phase"
  },
  {
   "property": "C147",
   "status": "proved",
   "theorems": [
    "Ecl.Ekf.recorded_unchanged",
    "Ecl.Ekf.recorded_newest",
    "Ecl.Ekf.tracking_recursion",
    "Ecl.Ekf.velocity_tracks",
    "Ecl.Ekf.position_tracks",
    "Ecl.Ekf.cycle_vert",
    "Ecl.Ekf.vert_recorded_newest",
    "Ecl.Ekf.vertical_tracks"
   ],
   "note": "real arithmetic, constant filter interval; the attitude loop (which has a delay) is not covered"
  },
  {
   "property": "C148",
   "status": "proved",
   "theorems": [
    "Ecl.Ekf.delay_loop",
    "Ecl.Ekf.heading_history",
    "Ecl.Ekf.heading_tracks",
    "Ecl.Ekf.heading_tracks_timing"
   ],
   "note": "Level motion (rotations about the vertical). Library fact used as hypothesis: the quaternion of the axis-angle (0,0,t) is (cos t/2,0,0,sin t/2)."
  },
  {
   "property": "C149",
   "status": "proved",
   "theorems": [
    "Ecl.Aid.gps_recovers",
    "Ecl.Aid.position_time_changes",
    "Ecl.Aid.gps_lockout_bounded",
    "Ecl.Aid.gps_lockout_forever",
    "Ecl.Aid.lock_reached",
    "Ecl.Aid.gps_lockout_reachable"
   ],
   "note": "positive claim under the proviso; the unconditional claim is refuted by gps_lockout_forever and gps_lockout_reachable"
  },
  {
   "property": "C150",
   "status": "proved",
   "theorems": [
    "Ecl.Gsf.select_step",
    "Ecl.Gsf.model_selected",
    "Ecl.Gsf.composite_near",
    "Ecl.Gsf.published_current",
    "Ecl.Gsf.published_selected",
    "Ecl.Gsf.selection_example"
   ],
   "note": ""
  },
  {
   "property": "C151",
   "status": "proved",
   "theorems": [
    "Ecl.Terrain.terrain_step",
    "Ecl.Terrain.terrain_converges",
    "Ecl.Terrain.terrain_effective"
   ],
   "note": "Range finder only (terrain optical flow off); over the reals."
  },
  {
   "property": "C152",
   "status": "proved",
   "theorems": [
    "Ecl.Fusion.height_accuracy",
    "Ecl.Fusion.vertical_velocity_accuracy",
    "Ecl.Fusion.horizontal_position_accuracy",
    "Ecl.Fusion.horizontal_velocity_accuracy",
    "Ecl.Fusion.repeated_heights",
    "Ecl.Fusion.east_variance_above_measurement"
   ],
   "note": "Horizontal: no limit acting on the north update; repeated: no limit acting. The expected law for east is refuted by a concrete case."
  },
  {
   "property": "C153",
   "status": "proved",
   "theorems": [
    "Ecl.Aid.vision_recovers",
    "Ecl.Aid.vision_lockout_bounded",
    "Ecl.Aid.flow_resets",
    "Ecl.Aid.flow_reset_storm",
    "Ecl.Aid.flow_storm_reachable"
   ],
   "note": "What the resets write is C122/C123."
  },
  {
   "property": "C154",
   "status": "proved",
   "theorems": [
    "Ecl.Whole.transition_used",
    "Ecl.Whole.velocity_position_errors",
    "Ecl.Whole.attitude_errors",
    "Ecl.Whole.gyro_bias_errors",
    "Ecl.Whole.bias_position_error_ignored"
   ],
   "note": "attitude parts without Earth rotation; exact reals"
  },
  {
   "property": "C155",
   "status": "proved",
   "theorems": [
    "Ecl.Fusion.height_bounded",
    "Ecl.Fusion.vertical_velocity_bounded",
    "Ecl.Fusion.horizontal_velocity_bounded",
    "Ecl.Fusion.horizontal_position_bounded",
    "Ecl.Fusion.airspeed_bounded",
    "Ecl.Fusion.sideslip_bounded",
    "Ecl.Fusion.heading_bounded",
    "Ecl.Fusion.gps_heading_bounded",
    "Ecl.Fusion.drag_bounded",
    "Ecl.Fusion.declination_bounded",
    "Ecl.Fusion.flow_bounded",
    "Ecl.Fusion.mag_bounded",
    "Ecl.Fusion.mag_moves_beyond_gate",
    "Ecl.Terrain.range_bounded",
    "Ecl.Terrain.terrain_flow_bounded",
    "Ecl.Whole.influence_bounded"
   ],
   "note": "Exact arithmetic. Quaternion components are bounded before the rescaling to unit length. For the two-component measurements no limit may act on the covariance between the components. mag_moves_beyond_gate is the negation for the later magnetometer axes. Terrain: Ecl.Terrain.range_bounded, Ecl.Terrain.terrain_flow_bounded."
  },
  {
   "property": "C156",
   "status": "proved",
   "theorems": [
    "Ecl.Interface.streams_independent",
    "Ecl.Interface.interface_safe",
    "Ecl.Interface.messages_before_imu_ignored",
    "Ecl.Interface.interface_capacity",
    "Ecl.Interface.gps_message_stored"
   ],
   "note": "the condition of fewer than 255 samples per interval is needed: the 8-bit sample counter wraps to zero and the average divides by it (C12). GPS payload computation (origin, quality checks) is C115/C87; the members that setGpsData sets outside the buffer are in C115"
  },
  {
   "property": "C157",
   "status": "proved",
   "theorems": [
    "Ecl.Aid.heading_reset_decision",
    "Ecl.Aid.step_remembers_source",
    "Ecl.Aid.heading_recovered",
    "Ecl.Aid.disturbed_compass_used",
    "Ecl.Aid.indoor_request_stays"
   ],
   "note": "two findings are proved as theorems: a fixed wing without usable GPS course resets to a disturbed compass; with type INDOOR a requested reset is neither carried out nor withdrawn"
  },
  {
   "property": "C158",
   "status": "proved",
   "theorems": [
    "Ecl.Whole.origin_irrelevant"
   ],
   "note": "exact real arithmetic; position innovations are inputs of the position fusions (estimate minus observation, hence unchanged)"
  },
  {
   "property": "C159",
   "status": "proved",
   "theorems": [
    "Ecl.Aid.decisions_depend_on_elapsed_time",
    "Ecl.Aid.inhibition_depends_on_clock"
   ],
   "note": "relational induction over the whole control step (magnetometer, GPS, flow, vision, air data, drag, auxiliary velocity, synthetic position); the second theorem shows why the 32-bit age needs its condition"
  },
  {
   "property": "C160",
   "status": "proved",
   "theorems": [
    "Ecl.Aid.vision_off_irrelevant",
    "Ecl.Aid.drag_off_irrelevant",
    "Ecl.Aid.mag_none_irrelevant",
    "Ecl.Aid.gps_off_irrelevant",
    "Ecl.Aid.disabled_gps_sets_heading",
    "Ecl.Aid.disabled_gps_blocks_compass",
    "Ecl.Aid.unused_mag_fused",
    "Ecl.Aid.flow_off_irrelevant"
   ],
   "note": "equality of complete runs; three refutations where independence fails. Independence from optical flow data is not stated here (the flow bookkeeping flags differ)."
  },
  {
   "property": "C161",
   "status": "proved",
   "theorems": [
    "Ecl.Interface.heading_only_gets_no_samples",
    "Ecl.Interface.heading_bit_alone_has_no_effect",
    "Ecl.Interface.same_fix_lost",
    "Ecl.Aid.no_samples_no_gps_heading"
   ],
   "note": "the control part alone is no_samples_no_gps_heading"
  },
  {
   "property": "C162",
   "status": "proved",
   "theorems": [
    "Ecl.Whole.other_quaternion_same_estimate",
    "Ecl.Whole.other_quaternion_run"
   ],
   "note": "all steps of the whole-filter model; ideal (real) arithmetic"
  },
  {
   "property": "C163",
   "status": "proved",
   "theorems": [
    "Ecl.Aid.gps_recovery",
    "Ecl.Aid.gps_start_heading"
   ],
   "note": "exact effects of controlGpsFusion on log, events, timers and requests"
  },
  {
   "property": "C164",
   "status": "proved",
   "theorems": [
    "Ecl.Whole.mirror_run",
    "Ecl.Whole.planar_flight_stays_planar",
    "Ecl.Whole.matrixLib_mirror",
    "Ecl.Whole.mirW_powerOn",
    "Ecl.Whole.south_field_not_mirrored"
   ],
   "note": "equality of whole filter states for every history; steps that pass through an angle interval are excluded, with a negation witness"
  },
  {
   "property": "C165",
   "status": "proved",
   "theorems": [
    "Ecl.Whole.vision_reset_overshoots",
    "Ecl.Whole.vision_velocity_reset_overshoots",
    "Ecl.Whole.vision_rejected_then_overshoots",
    "Ecl.Whole.evPosStep_no_timeout"
   ],
   "note": "exact result of reset and fusion of one sample, all states; the expected property (estimate equals measurement) is refuted"
  },
  {
   "property": "C166",
   "status": "proved",
   "theorems": [
    "Ecl.Whole.first_vision_sample",
    "Ecl.Whole.vision_start_certain",
    "Ecl.Whole.gps_has_no_weight",
    "Ecl.Whole.vision_takes_back_gps_start",
    "Ecl.Aid.vision_start_unset",
    "Ecl.Aid.gps_start_remembers"
   ],
   "note": "real arithmetic; horizontal position uncorrelated with the other states, as every reset leaves it. Findings"
  },
  {
   "property": "C167",
   "status": "proved",
   "theorems": [
    "Ecl.Aid.gps_velocity_reported",
    "Ecl.Aid.disabled_gps_reads_stale",
    "Ecl.Aid.gps_position_reported",
    "Ecl.Aid.without_aiding_gps_reports_fake",
    "Ecl.Aid.vision_velocity_reported",
    "Ecl.Aid.vision_position_reported",
    "Ecl.Aid.first_odometry_sample_reports_old_innovation",
    "Ecl.Aid.aux_velocity_reported",
    "Ecl.Aid.idle_vision_reads_zero",
    "Ecl.Aid.idle_gps_velocity_reads_zero",
    "Ecl.Aid.aux_never_cleared"
   ],
   "note": "numbers over any linearly ordered field; the numbers of a sample are inputs"
  },
  {
   "property": "C168",
   "status": "proved",
   "theorems": [
    "Ecl.Aid.remembered_velocity",
    "Ecl.Aid.remembered_variance",
    "Ecl.Aid.aux_hides_wrong_heading"
   ],
   "note": ""
  },
  {
   "property": "C169",
   "status": "proved",
   "theorems": [
    "Ecl.Whole.gps_reset_then_fused",
    "Ecl.Whole.gps_reset_no_lever_arm",
    "Ecl.Whole.gps_reset_leaves_half_lever_arm"
   ],
   "note": "real arithmetic; the sample's attitude is the one after any yaw reset; no bad-vertical-acceleration flag; starting with optical flow in use resets no velocity and is not covered"
  },
  {
   "property": "C170",
   "status": "proved",
   "theorems": [
    "Ecl.Whole.recorded_reset_done",
    "Ecl.Whole.gps_aiding_recovers",
    "Ecl.Whole.gps_aiding_only_fuses",
    "Ecl.Whole.gps_no_unnoticed_divergence"
   ],
   "note": "GpsClosed.lean: decisions (Aid) and numbers (Whole) in one loop; accuracies of the sample between 1 mm and 1 km; divergence: induction over the flight."
  },
  {
   "property": "C171",
   "status": "proved",
   "theorems": [
    "Ecl.Whole.height_reset_then_fused",
    "Ecl.Whole.height_reset_error",
    "Ecl.Whole.height_reset_var_le",
    "Ecl.Whole.height_switch_step"
   ],
   "note": "Exact result of reset and fusion in one step, lower bound on the remaining error, and the step of a switch to GPS. Fusions of other data between the two are not part of the step. Ground effect compensation off for the barometer."
  },
  {
   "property": "C172",
   "status": "proved",
   "theorems": [
    "Ecl.RangeFinder.range_step_healthy",
    "Ecl.RangeFinder.range_step_none",
    "Ecl.RangeFinder.range_step_height",
    "Ecl.RangeFinder.range_step_configured",
    "Ecl.RangeFinder.range_corrected_once"
   ],
   "note": "The conversion of the hysteresis to an integer is the floor for values below 2^64."
  },
  {
   "property": "C173",
   "status": "proved",
   "theorems": [
    "Ecl.Aid.vision_sample",
    "Ecl.Aid.vision_velocity_ignored_forever",
    "Ecl.Aid.vision_velocity_ignored_reachable"
   ],
   "note": "exact effects of controlExternalVisionFusion on log, events and timers; finding for histories without GPS, flow, auxiliary velocity and magnetometer"
  },
  {
   "property": "C174",
   "status": "proved",
   "theorems": [
    "Ecl.Fusion.NaN.nan_accepted",
    "Ecl.Fusion.NaN.nan_mag_accepted",
    "Ecl.Fusion.NaN.nan_rejected",
    "Ecl.Fusion.NaN.finite_gates",
    "Ecl.Fusion.NaN.attitude_lost_forever",
    "Ecl.Fusion.NaN.one_nan_sample"
   ],
   "note": "Floats are a real or NaN, infinities and rounding not modelled; the covariance health checks are taken as passed."
  },
  {
   "property": "C175",
   "status": "proved",
   "theorems": [
    "Ecl.Gps.NaN.nan_checks_real",
    "Ecl.Gps.NaN.accuracy_checks",
    "Ecl.Gps.NaN.vspeed_check_dead",
    "Ecl.Gps.NaN.hspeed_check_blind",
    "Ecl.Gps.NaN.nan_receiver_good"
   ],
   "note": "Floats are a real or NaN; infinities and rounding not modelled."
  },
  {
   "property": "C176",
   "status": "proved",
   "theorems": [
    "Ecl.Wind.NaN.nan_detected",
    "Ecl.Wind.NaN.nan_healed",
    "Ecl.Wind.NaN.nan_restarts",
    "Ecl.Wind.NaN.nan_start",
    "Ecl.Wind.NaN.agree_airspeed",
    "Ecl.Wind.NaN.agree_beta",
    "Ecl.Wind.NaN.agree_update"
   ],
   "note": "Floats are a real or NaN; a quotient with denominator zero counts as NaN, infinities and rounding are not modelled; the sideslip sensitivity and the relative wind are arbitrary in the history theorem. The NaN airspeed case of nan_detected assumes an innovation variance that is not negative, which C50 guarantees for the estimator over the reals."
  },
  {
   "property": "C177",
   "status": "proved",
   "theorems": [
    "Ecl.Gsf.coarse_undecided",
    "Ecl.Gsf.coarse_restarts",
    "Ecl.Gsf.coarse_main",
    "Ecl.Gsf.fine_decides"
   ],
   "note": "Floats are reals, as in C52. The threshold 57 is not sharp."
  },
  {
   "property": "C178",
   "status": "proved",
   "theorems": [
    "Ecl.Terrain.NaN.nan_healed",
    "Ecl.Terrain.NaN.nan_flow_ignored",
    "Ecl.Terrain.NaN.nan_variance_published",
    "Ecl.Terrain.NaN.agree_step"
   ],
   "note": "Floats are a real or NaN; a quotient with denominator zero counts as NaN, infinities and rounding are not modelled. The down position of the main filter, range and parameters are numbers; the line of sight sensitivities are arbitrary numbers."
  }
 ]
}