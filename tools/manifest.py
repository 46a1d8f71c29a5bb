#!/usr/bin/env python3
# Source of MANIFEST.json (run: python3 tools/manifest.py)
import json,os
C=[]
def c(prop,status,theorems,note=""):
    C.append(dict(property=prop,status=status,theorems=theorems.split() if isinstance(theorems,str) else theorems,note=note))
RB="Ecl.RingBuffer."
def q(ns,names): return [ns+n for n in names.split()]
c("C01","proved",q(RB,"ringbuffer_refines_queue ringbuffer_accessors ringbuffer_allocate spec_length_le"),"Refinement to an abstract queue for every operation history.")
c("C02","proved",q(RB,"pop_delivers_newest_eligible delivered_at_most_once"),"For query times of at least 100 ms; see C03 for the rest.")
c("C03","proved",q(RB,"early_query_redelivers early_query_invents_sample constructor_256_unusable constructor_truncates unallocated_buffer"),"Negation witnesses of the unrestricted contract.")
AF="Ecl.AlphaFilter."
c("C04","proved",q(AF,"updates_closed_form updates_const_error updates_in_hull updates_const_tendsto unconfigured_ignores_samples"),"Exact real/field arithmetic; float rounding not modelled.")
c("C05","proved",q(AF,"setParameters_spec setParameters_no_div_zero"),"")
ID="Ecl.ImuDownSampler."
c("C06","proved",q(ID,"run_loses_nothing run_time_conserved emitted_rotation matrixLib_exp_log"),"")
c("C07","proved",q(ID,"run_output_interval first_emission"),"")
RF="Ecl.RangeFinder."
c("C08","proved",q(RF,"healthy_iff_all_checks healthy_refreshes bad_quality_blocks future_sample_rejected handed_sample_is_checked not_ready_not_healthy fresh_reports_nothing unconfigured_only_zero unconfigured_looks_up"),"")
c("C09","proved",q(RF,"stuck_never_healthy spread_releases first_sample_withheld"),"")
c("C10","proved",q(RF,"regular_iff lpf_bounded"),"")
c("C62","proved",q(RF,"boresight_down_component distBottom_is_vertical_component first_pitch_offset"),"")
IF="Ecl.Interface."
c("C11","proved",q(IF,"port_refines_thinned_queue thin_pushes_accepted accepted_sublist accepted_gap port_ignores"),"Time shift itself is C15.")
c("C12","proved",q(IF,"averager_means groups_partition averager_256_divides_by_zero averager_long_group_wrong"),"Includes the negative part (256 samples).")
c("C13","proved",q(IF,"maxDelay_isMax bufferLengths_spec bufferLengths_defined_iff gps_delay_ignored_without_mask"),"")
c("C14","proved",q(IF,"minObsInterval_defined_iff minObsInterval_divides_by_zero minObsInterval_empty"),"The unrestricted claim is refuted by a witness configuration.")
c("C15","proved",q(IF,"shift_error_le_ulp shift_exact_small shift_error_unbounded shift_undefined_early"),"Delays restricted to whole microseconds representable as float.")
c("C16","proved",q(IF,"atRest_iff"),"")
c("C17","proved",q(IF,"aiding_active_iff only_source_iff"),"")
c("C18","proved",q(IF,"imuAvg_bounds imuAvg_stays imuAvgStep_value ekfAvg_bounds ekfAvgStep_value"),"")
c("C63","proved",q(IF,"biasVar_is_not_variance biasOut_spec"),"Refutation.")
c("C64","proved",q(IF,"drag_groups"),"")
c("C65","proved",q(IF,"vibe_is_lowpass vibe_bounded"),"")
UT="Ecl.Utils."
c("C39","proved",q(UT,"taitBryan312_isRotation taitBryan312_factors quatToInverseRotMat_spec yaw_extractors_agree selected_sequence_regular updateYaw_spec"),"")
c("C40","proved",q(UT,"kahan_exact kahan_compensates kahanRun_exact"),"")
c("C61","proved",q(UT,"powf_eq_zpow"),"")
EK="Ecl.Ekf."
c("C21","proved",q(EK,"resetHorizontalVelocityTo_spec resetVerticalVelocityTo_spec resetHorizontalPositionTo_spec resetVerticalPositionTo_spec counters_count published_jump vertNew_shift_iff"),"vertNew_shift_iff: the current alternative vertical position is the one quantity not shifted.")
c("C22","proved",q(EK,"tracking_error_invariant"),"")
c("C66","proved",q(EK,"resetQuatStateYaw_spec quatOfDcm_spec quatLib"),"The conversions of the external vector library are hypotheses (QuatLib) of the reset theorem; quatLib proves them for the library algorithm as modelled (not part of /repo).")
c("C67","proved",q(EK,"alignOutputFilter_spec"),"")
c('C23','proved',q('Ecl.Ekf.','constrainStates_within constrainStates_id constrainStates_nearest'),'')
c('C68','proved',q('Ecl.Ekf.','predict_attitude predict_kinematics predict_others constant_acceleration_exact earthRate_spec'),'Axis-angle conversion is a library parameter.')
c('C69','proved',q('Ecl.Ekf.','initialiseTilt_spec'),'')
c('C70','proved',q('Ecl.Ekf.','output_ins output_correct trackGain_range attCorrection_spec'),'')
c('C71','proved',q('Ecl.Ekf.','applyVert_spec applyVert_single_slot'),'')
c('C24','proved',q('Ecl.Cov.','kalman_update_valid optimal_gain_accepted optimal_update_valid'),'')
c('C25','proved',q('Ecl.Cov.','checkAndFix_spec measurementUpdate_spec'),'')
c('C26','proved',q('Ecl.Cov.','fix_variance_limits fix_accel_variance accel_floor_exceeds_cap fix_keeps_symmetry fix_unused_zero fix_forces_symmetry'),'')
c('C58','proved',q('Ecl.','timeout_meaning timeout_exclusive timeout_wraps'),'')
c('C60','proved',q('Ecl.Cov.','yaw_variance_increase yaw_variance_increase_valid yawDir_is_derivative'),'')
c('C72','proved',q('Ecl.Cov.','inhibited_axis_can_invalidate'),'negative property')
c('C73','proved',q('Ecl.Cov.','limiter_can_invalidate'),'negative property')
c('C75','proved',q('Ecl.Cov.','resetWind_with_airspeed resetWind_without_airspeed resetWind_units resetWind_valid')+q('Ecl.Fusion.','wind_reset airspeed_after_reset'),'')
c('C76','proved',q('Ecl.Cov.','mag_cov_round_trip mag_cov_restart_valid resetMagCov_spec stopMag_spec'),'')
c('C77','proved',q('Ecl.Cov.','inhibit_spec inhibit_hold'),'')
c('C78','proved',q('Ecl.Cov.','process_noise_stops process_noise_values process_noise_nonneg imu_noise_values heightRate_convex'),'')
c('C79','proved',q('Ecl.Cov.','fix_keeps_valid fix_within_limits updates_keep_valid'),'')
c('C74','proved',q('Ecl.Cov.','quatJac_is_derivative rotVec_spec quatBlock_eq initQuatCov_spec initQuatCov_valid resetQuatCov_spec'),'')
c('C80','proved',q('Ecl.Cov.','gpsHeightVariance_spec init_spec init_valid'),'')
c('C81','proved',q('Ecl.Cov.','bias_reset_spec resetMagBias_then_start'),'')
c('C27','proved',q('Ecl.Cov.','covariance_prediction accumulators_zero matF_jacobian matG_jacobian'),'Exact arithmetic; all 300 generated entries; Jacobians proved to be derivatives of the propagation model of the derivation script.')
c('C82','proved',q('Ecl.Cov.','prediction_valid growth_stop_breaks_validity'),'Includes the negative part (growth stop).')
c('C29','proved',q('Ecl.Fusion.','airspeed_fusion airspeed_gradient airspeedVar_range airspeed_always_fused airspeed_wind_only'),'Whole function incl. resets and flags.')
c('C30','proved',q('Ecl.Fusion.','sideslip_fusion sideslip_gradient sideslip_always_fused sideslip_gate_admits_zero_forward'),'Includes the negative part: the 7 m/s gate does not exclude zero forward speed.')
c('C32','proved',q('Ecl.Fusion.','drag_fusion dragX_gradient dragY_gradient drag_wind_only'),'The Y axis innovation uses the relative wind of the state before the X axis was fused (stated in drag_fusion).')
c('C34','proved',q('Ecl.Fusion.','declination_fusion declination_gradient declination_aligned limitDeclination_spec limitDeclination_no_wrap declination_innovation_no_wrap magDeclination_spec'),'Negative part: neither the innovation nor the limiter wraps angles, so references near 180 degrees are mishandled.')
c('C28','proved',q('Ecl.Fusion.','mag_fusion mag_gradient mag_field_only'),'Whole function for a positive noise parameter (with zero noise the variance may be zero and is divided by).')
c('C31','proved',q('Ecl.Fusion.','flow_fusion flowX_gradient flowY_gradient'),'Negative part in the statement: mixed gain of the second axis.')
c('C83','proved',q('Ecl.Fusion.','flow_variance'),'')
c('C84','proved',q('Ecl.Fusion.','flow_rate_comp flow_bias_bounded flow_bias_of_perfect_gyro flow_bias_wrong flow_bias_at_rest'),'')
c('C33','proved',q('Ecl.Fusion.','gpsYaw_gradient gpsYaw_fusion gpsYaw_blind_east yawGrad_gradient yaw_fusion yaw_selected_observable yaw_path_choice'),'Gradient off the branch cut (heading exactly south). Findings: GPS yaw ignored when the antenna baseline is within 1e-3 of east/west (gpsYaw_blind_east); of two usable yaw paths the code picks the worse-conditioned one (yaw_path_choice).')
c('C85','proved',q('Ecl.Fusion.','heading_spec magHeading_exact yaw_removed heading_inhibit_ineffective'),'heading_inhibit_ineffective refutes the intended effect of yaw fusion inhibition.')
c('C86','proved',q('Ecl.Fusion.','syntheticMagZ_exact syntheticMagZ_spec'),'')
c('C87','proved',q('Ecl.Fusion.','yaw_corrects_all_bias yaw_moves_inhibited_bias direct_observation_corrects_inhibited'),'Finding: updateQuaternion and fuseVelPosHeight do not mask inhibited accelerometer bias axes.')
c('C35','proved',q('Ecl.Fusion.','hvel_gate hpos_gate vvel_gate vpos_gate direct_observation_residual'),'exact gates and effects, exact reals; innovations beyond 100 standard deviations under an inhibited gate are ignored without setting the rejection flag; both axes use innovations and variances computed before the first axis was fused')
c('C36','proved',q('Ecl.Fusion.NaN.','both_nan one_nan_fused inhibited_gate_fuses_nan nan_fusion_destroys_state vertical_nan hvelFused_finite hposFused_finite vertical_finite'),'refuted for one NaN axis (fmaxf) and for inhibited gates; NaN as a separate value, infinities not modelled')
c('C56','proved',q('Ecl.Status.','fault_word last_flags_invisible soln_bits soln_upper_bits'),'includes the refutations; bit field layout LSB first, little endian')
c('C88','proved',q('Ecl.Status.','rejection_bits_shifted passing_mag_hides_height_rejection'),'refuted')
c('C57','proved',q('Ecl.Status.','dr_flags dr_exclusive dr_exceeded_initially dr_history dr_aided_valid dr_zero_marker dr_fresh'),'all histories; times below 2^62; finding dr_zero_marker')
c('C89','proved',q('Ecl.Status.','lpos_accuracy gpos_accuracy global_not_better exceeded_implies_dr vel_accuracy'),'the velocity accuracy uses the GPS/vision position innovation (metres) as a velocity error indicator, as the code does')
c('C90','proved',q('Ecl.Status.','ctrl_limits'),'')
c('C91','proved',q('Ecl.Status.','test_ratio_meaning test_ratio_values'),'')
c('C19','proved',q('Ecl.Control.','at_most_one_source exactly_one_source init_one'),'EKF/control.cpp height control and timeouts modelled completely')
c('C20','proved',q('Ecl.Control.','gps_height_trap stop_gps_no_source trap_reachable trap_exit'),'finding: the state without height source is permanent')
c('C92','proved',q('Ecl.Control.','select_baro_primary select_range_primary select_gps_primary select_ev_primary stale_vision_fused'),'finding: stale vision height is fused at every step')
c('C93','proved',q('Ecl.Control.','height_observation ground_effect_deadzone gps_switch_no_step range_switch_no_step controlHeight_fused baro_offset_tracking baro_offset_kept ground_effect_expiry ground_effect_stays_in_fallback'),'')
c('C94','proved',q('Ecl.Control.','height_timeout_when height_timeout_source reset_height_values height_timeout_fault'),'')
c('C95','proved',q('Ecl.Control.','baro_timeout_switch_undone'),'finding')
c('C37','proved',q('Ecl.Gps.','gps_good_iff check_flags fail_immediate gps_good_now'),'all ten checks of EKF/gps_checks.cpp modelled; exact arithmetic, geo projection abstract')
c('C38','proved',q('Ecl.Gps.','origin_never_moves origin_set_iff origin_values origin_history collected_iff'),'')
c('C96','proved',q('Ecl.Gps.','drift_bounded steady_drift quiet_passes error_norm'),'')
c('C97','proved',q('Ecl.Gps.','fix_check_never_fails outage_invisible outage_no_restart'),'finding')
c('C98','proved',q('Ecl.Gps.','set_origin_same_point commanded_altitude_overwritten'),'finding: commanded altitude overwritten; projection abstract with reproject∘project = id as hypothesis')
c('C41','proved',q('Ecl.Geo.','project_spec reproject_spec project_reproject reproject_project project_self'),'Exact spherical geometry over the reals.')
c('C42','proved',q('Ecl.Geo.','projection_needs_init projection_init'),'')
c('C43','proved',q('Ecl.Geo.','distance_eq distance_metric projected_distance'),'')
c('C44','proved',q('Ecl.Geo.','bearing_spec waypoint_spec waypoint_distance waypointFromLine_spec'),'')
c('C45','proved',q('Ecl.Geo.',"fast_inverse fast_inverse'"),'')
c('C99','proved',q('Ecl.Geo.','distanceToLine_spec vectorTo_spec distance3_spec distanceLocal_spec distanceToLine_on_track_past_end'),'The track bearing is taken at the start point, so on a long track a point on the track can be reported as past its end (theorem).')
c('C100','proved',q('Ecl.Geo.','distanceToArc_spec arc_wrong_side arc_not_on_arc arc_in_sector arc_outside_sector arc_outside_ignores_centre arc_west_never_in_sector arc_negative_sweep_sector'),'Exact contract of the code in every case, and theorems refuting the documented contract (nearest point of the arc): the sector test uses the bearing from the position to the centre instead of the reverse, the start and end points are displaced from the position instead of the centre so that outside the sector the result does not depend on the centre, arcs in the western half plane contain nothing, a negative sweep tests the wrong sector.')
c('C46','proved',q('Ecl.GeoLookup.','lookup_total lookup_out_of_range lookup_values'),'Longitudes beyond +-540 degrees are clamped to the date line rather than reduced (theorem).')
c('C47','proved',q('Ecl.GeoLookup.','lookup_bilinear lookup_node lookup_date_line declination_wrap_error'),'Exact and continuous as numbers; because declination is interpolated as a number the result near the magnetic pole is wrong as an angle (counterexample theorem).')
c('C48','proved',q('Ecl.Terrain.','prediction_grows fuseHagl_spec run_ground run_init run_air var_history reset_repeats'),'Finding: the reset after 10 s of rejections does not restart the timer, so it repeats with every further rejected sample.')
c('C49','proved',q('Ecl.Terrain.','validity_spec valid_history valid_without_sensor flow_init_claims_range'),'The literal claim needs on-ground resets and initialisations to count as information: findings show validity without any sensor for 5 s after take-off, and flow initialisation reported as range finder data.')
c('C101','proved',q('Ecl.Terrain.','fuseFlow_spec flow_event flowReadiness_spec flowReadiness_iff'),'')
c('C50','proved',q('Ecl.Wind.','always_valid limits_after_fusion limits_not_always limit_breaks_covariance'),'The caps hold right after accepted measurements only (limits_not_always); capping can destroy positive semi-definiteness (limit_breaks_covariance).')
c('C51','proved',q('Ecl.Wind.','prediction_at_most_1Hz airspeed_at_most_10Hz sideslip_at_most_10Hz restart_by_airspeed restart_by_sideslip reset_cleared update_cases time_backwards'),'time_backwards: a stamp going back passes the unsigned gate.')
c('C102','proved',q('Ecl.Wind.','airspeed_gradient sideslip_gradient airspeed_fusion sideslip_fusion accepted_consistent zero_airspeed_drops_estimate tuning_in_force'),'')
c('C103','proved',q('Ecl.Wind.','initial_wind initial_covariance_not_jacobian prediction prediction_psd growth_depends_on_rate'),'initial_covariance_not_jacobian, the north-east part of prediction and growth_depends_on_rate are findings.')
c('C52','proved',q('Ecl.Gsf.','weights_distribution published bayes bayes_clipped collapse availability start_variance density_spec'),'')
c('C53','proved',q('Ecl.Gsf.','transition_jacobian predictP_eq prediction updGen_eq update_spec yawRot_spec covariance_valid'),'P is symmetric in every reachable state (covariance_valid)')
c('C54','proved',q('Ecl.Gsf.','accelGain_range newBias_range newBias_step bias_bounded bias_copied_unlimited covariance_valid'),"the bias limit holds when the main filter's bias is within the limit; bias_copied_unlimited is the counterexample otherwise")
c('C104','proved',q('Ecl.Gsf.','tiltMat_spec tilt_degenerate rotRow_spec predict_row_length predict_still correction_direction tiltCorr_spec bank_covers start_attitudes consensus align_iff filtAcc_convex attitude_increment rest_keeps_attitude heading_read velocity_used'),'tilt_degenerate: specific force along body X divides 0 by 0 in the code')
c('C55','proved',q('Ecl.Aid.','modes_exclusive disabled_never_used fault_permanent fault_never_used mode_selected check3D_spec disturbed_3D_fused declination_flag_left switched_to_none'),'histories of the whole aiding control step; the last three are findings')
c('C59','proved',q('Ecl.Aid.','resets_limited reset_conditions resets_spaced uncounted_unlimited limit_above_255_ignored origin_breaks_spacing'),'last three are refutations of the unrestricted claim')
c('C105','proved',q('Ecl.Aid.','indoor_never_aligns other_types_align'),'finding')
c('C106','proved',q('Ecl.Aid.','gps_yaw_start gps_yaw_faulty_forever gps_yaw_timeout vision_and_gps_yaw'),'vision_and_gps_yaw is a finding')
c('C107','proved',q('Ecl.Aid.','healthy_gps_times_out accepted_position_restarts_timer'),'healthy_gps_times_out is the refutation')
c('C108','proved',q('Ecl.Aid.','gps_start_conditions gps_starts gps_stop_reasons gps_stops vision_yaw_lost'),'')
c('C109','proved',q('Ecl.Aid.','ev_pos_start ev_stop first_odometry_sample_zero_variance reset_forgets_previous'),'')
c('C110','proved',q('Ecl.Aid.','synthetic_iff synthetic_fusion'),'')
c('C111','proved',q('Ecl.Aid.','flow_start_conditions flow_starts flow_stop_iff flow_fused_conditions flowInhibit_iff'),'')
c('C112','proved',q('Ecl.Aid.','wind_start wind_stop airspeed_flag drag_keeps_wind sideslip_conditions drag_conditions aux_conditions'),'')
c('C113','proved',q('Ecl.Gps.','isGood_drift report_fresh_iff report_values report_fresh_but_old fresh_checks'),'On the ground in motion old values are marked as updated (theorem).')
c('C114','proved',q('Ecl.Aid.Numeric.','disturbed_iff disturbed_rotation disturbed_unknown_reference yawObservable_iff biasObservable_iff lastSuitable check3D_numeric auto_mode_choice'),'')
c('C115','proved',q('Ecl.Gps.','rough_fix origin_has_reference stored_position early_sample_misplaced'),"Finding (early_sample_misplaced): a sample buffered just before the origin is set keeps position (0,0) although the vehicle's projected position is different; it is fused later with that position.")
c('C116','proved',q('Ecl.Yaw.','updateYaw_turns yaw_reset yaw_reset_cov declination_spec compass_reset no_second_reset no_heading_source vision_reset vision_start vision_reset_disturbs vision_start_disturbs vision_start_outputs'),"Findings: resetMagHeading reads the vision yaw with the 312 sequence, startEvYawFusion with the 321 sequence, while the reset writes it with whichever sequence suits the tilt: a vision attitude identical to the filter's then changes the attitude. The conversions of the external matrix library are modelled (Shepperd) and proved to meet the assumptions (Ecl.Ekf.quatLib).")
c('C117','proved',q('Ecl.Yaw.','course_unusable course_first course_later course_states course_agrees course_uncertainty course_cov gsf_reset course_first_disturbs realign_matches'),'Findings: the course variance (up to (π/2)² rad²) is silently limited to 0.01 rad² and added to, not put in place of, the old heading variance (course_cov); for attitudes using the 312 sequence the first alignment turns the attitude even if the courses agree (course_first_disturbs). realign_matches links the numbers to the control logic model.')
c('C118','proved',q('Ecl.VertAccel.','falling_iff independent_iff clip_bounded clip_evidence clip_majority_seen clip_forgotten fault_iff_recent_evidence continuous_bad_iff one_clipped_sample_suffices old_clipping_counts nan_is_healthy'),'`_bad_vert_accel_detected`, which would limit instead of reject vertical innovations, is never assigned in the code base, so that branch of the fusion (C28, C29) is dead.')
c('C119','proved',q('Ecl.RangeAid.','check_iff start_stay suitable_iff band_keeps suitable_now variance_boundary'),'exact rationals; 0.7f and 0.01f taken as 7/10 and 1/100')
c('C120','proved',q('Ecl.Baro.','compensate_value axis_bound compensate_bounded compensate_off compensate_frame axis_continuous'),'real arithmetic; density zero gives 0/0 in the code and is excluded by hypothesis')
c('C121','proved',q('Ecl.Fusion.','flow_admission flow_interval flow_accumulators nan_flow_admitted no_limit_no_flow'),'real arithmetic with explicit NaN for the flow and non-finite gyro')
c('C122','proved',q('Ecl.Meas.','velocity_reset reset_valid unhealthy_gps_stops flow_reset_unbounded'),'')
c('C123','proved',q('Ecl.Meas.','position_reset reset_valid'),'')
c('C124','proved',q('Ecl.Meas.','vision_alignment vision_alignment_stale vision_velocity vision_velocity_variance vision_position vision_odometry vision_position_noise vision_reset_stale vision_position_fused'),'')
c('C125','proved',q('Ecl.Meas.','gps_lever_arm gps_noise gps_gates lever_bias_bound gps_reset_offset point_velocity'),'')
c('C126','proved',q('Ecl.Meas.','yaw_failure_iff yaw_failure_heading_error'),'')
c('C127','proved',q('Ecl.Meas.','synthetic_start synthetic_noise synthetic_hold aux_velocity aux_variance_stale'),'')
c('C128','proved',q('Ecl.Meas.','motion_excessive_iff motion_memory motion_in_control'),'')
c('C129','proved',q('Ecl.Gsf.','main_calls accuracy_is_vertical old_airspeed_used'),'')
c('C130','proved',q('Ecl.Meas.','published_body_origin lever_arm_velocity yaw_rate_filter'),'')
c('C131','proved',q('Ecl.Cov.','rotVec_projection rotComp_deriv rotVec_nonneg rotVec_sign rotVec_identity rotVec_bounds'),'')
c('C132','proved',q('Ecl.Boot.','init_core update_core initialised_has_data initialised_at_rest startup_safe'),'IMU down-sampling result and sensor samples popped from the buffers are inputs; the running filter is an arbitrary function that keeps the output buffer readable.')
c('C133','proved',q('Ecl.Boot.','update_returns update_twice uninitialised_update'),'update_twice: finding.')
c('C134','proved',q('Ecl.Boot.','initial_state initial_covariance initial_terrain'),'')
c('C135','proved',q('Ecl.Boot.','reset_stops reset_reinitialises reset_false_alignment'),'the last two are findings: the intended property (a reset filter starts like a new one) is false.')
c('C136','proved',q('Ecl.Boot.','initial_averages average_range initial_imu_averages'),'')
c('C137','proved',q('Ecl.Whole.','covariance_sane variances_limited negative_vision_variance resetHeight_agrees reset_leaves predict_leaves powerOn_is_reset predict_inhibits'),'every writer of the covariance is a step; the control logic that chooses the order is over-approximated by any order')
c('C138','proved',q('Ecl.Whole.','attitude_unit states_limited'),'conversion between matrices and quaternions assumed mathematical for yaw resets (shown for the standard formula)')
c('C139','proved',q('Ecl.Whole.','perfect_step perfect_history perfect_data'),'Spec.Fits states what a fitting measurement is; Spec.truth is the true motion, Spec.TrueLog a log of it.')
c('C140','proved',q('Ecl.Whole.','covariance_valid wind_only_airspeed_indefinite flow_indefinite valid_step psd_predictCovariance good_fuseMag good_fuseDeclination good_fuseGpsYaw good_fuseAirspeed good_fuseSideslip good_fuseHeading good_velpos exReg_ok'),'The limits of regularity are explicit hypotheses (Spec.Regular, Spec.BelowLimits); a non-trivial history meeting them is exReg; the refutations show that two of the restrictions are needed.')
c('C141','proved',q('Ecl.Fp.','update_variances_float update_refused_float predict_variances_float update_symmetric_float predict_symmetric_float update_exact fix_exact binary32_rounding'),'Covers the conditioning code operation by operation; the values computed before it (KHP, next covariance) are arbitrary floats.')
c('C142','proved',q('Ecl.Fp.','attitude_unit_float normalize_unit mul_exact normalize_exact binary32_single'),'')
c('C143','proved',q('Ecl.Fp.','states_limited_float update_nan_stays nan_stays'),'')
c('C144','proved',q('Ecl.Fp.','dt_average_float dt_start weights_float weights_from_start'),'')
c('C145','proved',q('Ecl.Fusion.','vertical_velocity_honest vertical_position_honest horizontal_velocity_honest horizontal_position_honest pair_conservative partial_update_crosscovariance stale_innovation_overconfident mag_overconfident mag_variance_too_small gps_position_overconfident gps_variance_too_small'),'exact for velocity and position fusion; refuted for magnetometer fusion and for a whole GPS sample with the exact excess and a witness; for partial corrections the exact deviation. Quaternion entries excluded.')
c('C146','proved',q('Ecl.Interface.','buffer_delivers_due buffer_delivers_all port_delivers_due rate_limit_window long_step_loses_sample stale_sample_never_delivered startup_overwrites_accepted'),"specification keeps everything for ever; the comment's guarantee at estimator_interface.cpp:80 is refuted for the start-up phase")
c('C147','proved',q('Ecl.Ekf.','recorded_unchanged recorded_newest tracking_recursion velocity_tracks position_tracks cycle_vert vert_recorded_newest vertical_tracks'),'real arithmetic, constant filter interval; the attitude loop (which has a delay) is not covered')
c('C148','proved',q('Ecl.Ekf.','delay_loop heading_history heading_tracks heading_tracks_timing'),'Level motion (rotations about the vertical). Library fact used as hypothesis: the quaternion of the axis-angle (0,0,t) is (cos t/2,0,0,sin t/2).')
c('C149','proved',q('Ecl.Aid.','gps_recovers position_time_changes gps_lockout_bounded gps_lockout_forever lock_reached gps_lockout_reachable'),'positive claim under the proviso; the unconditional claim is refuted by gps_lockout_forever and gps_lockout_reachable')
c('C150','proved',q('Ecl.Gsf.','select_step model_selected composite_near published_current published_selected selection_example'),'')
c('C151','proved',q('Ecl.Terrain.','terrain_step terrain_converges terrain_effective'),'Range finder only (terrain optical flow off); over the reals.')
c('C152','proved',q('Ecl.Fusion.','height_accuracy vertical_velocity_accuracy horizontal_position_accuracy horizontal_velocity_accuracy repeated_heights east_variance_above_measurement'),'Horizontal: no limit acting on the north update; repeated: no limit acting. The expected law for east is refuted by a concrete case.')
c('C153','proved',q('Ecl.Aid.','vision_recovers vision_lockout_bounded flow_resets flow_reset_storm flow_storm_reachable'),'What the resets write is C122/C123.')
c('C154','proved',q('Ecl.Whole.','transition_used velocity_position_errors attitude_errors gyro_bias_errors bias_position_error_ignored'),'attitude parts without Earth rotation; exact reals')
c('C155','proved',q('Ecl.Fusion.','height_bounded vertical_velocity_bounded horizontal_velocity_bounded horizontal_position_bounded airspeed_bounded sideslip_bounded heading_bounded gps_heading_bounded drag_bounded declination_bounded flow_bounded mag_bounded mag_moves_beyond_gate')+q('Ecl.Terrain.','range_bounded terrain_flow_bounded')+q('Ecl.Whole.','influence_bounded'),'Exact arithmetic. Quaternion components are bounded before the rescaling to unit length. For the two-component measurements no limit may act on the covariance between the components. mag_moves_beyond_gate is the negation for the later magnetometer axes. Terrain: Ecl.Terrain.range_bounded, Ecl.Terrain.terrain_flow_bounded.')
c('C156','proved',q('Ecl.Interface.','streams_independent interface_safe messages_before_imu_ignored interface_capacity gps_message_stored'),'the condition of fewer than 255 samples per interval is needed: the 8-bit sample counter wraps to zero and the average divides by it (C12). GPS payload computation (origin, quality checks) is C115/C87; the members that setGpsData sets outside the buffer are in C115')
c('C157','proved',q('Ecl.Aid.','heading_reset_decision step_remembers_source heading_recovered disturbed_compass_used indoor_request_stays'),'two findings are proved as theorems: a fixed wing without usable GPS course resets to a disturbed compass; with type INDOOR a requested reset is neither carried out nor withdrawn')
c('C158','proved',q('Ecl.Whole.','origin_irrelevant'),'exact real arithmetic; position innovations are inputs of the position fusions (estimate minus observation, hence unchanged)')
c('C159','proved',q('Ecl.Aid.','decisions_depend_on_elapsed_time inhibition_depends_on_clock'),'relational induction over the whole control step (magnetometer, GPS, flow, vision, air data, drag, auxiliary velocity, synthetic position); the second theorem shows why the 32-bit age needs its condition')
c('C160','proved',q('Ecl.Aid.','vision_off_irrelevant drag_off_irrelevant mag_none_irrelevant gps_off_irrelevant disabled_gps_sets_heading disabled_gps_blocks_compass unused_mag_fused flow_off_irrelevant'),'equality of complete runs; three refutations where independence fails. Independence from optical flow data is not stated here (the flow bookkeeping flags differ).')
c('C161','proved',q('Ecl.Interface.','heading_only_gets_no_samples heading_bit_alone_has_no_effect same_fix_lost')+q('Ecl.Aid.','no_samples_no_gps_heading'),'the control part alone is no_samples_no_gps_heading')
c('C162','proved',q('Ecl.Whole.','other_quaternion_same_estimate other_quaternion_run'),'all steps of the whole-filter model; ideal (real) arithmetic')
c('C163','proved',q('Ecl.Aid.','gps_recovery gps_start_heading'),'exact effects of controlGpsFusion on log, events, timers and requests')
c('C164','proved',q('Ecl.Whole.','mirror_run planar_flight_stays_planar matrixLib_mirror mirW_powerOn south_field_not_mirrored'),'equality of whole filter states for every history; steps that pass through an angle interval are excluded, with a negation witness')
c('C165','proved',q('Ecl.Whole.','vision_reset_overshoots vision_velocity_reset_overshoots vision_rejected_then_overshoots evPosStep_no_timeout'),'exact result of reset and fusion of one sample, all states; the expected property (estimate equals measurement) is refuted')
c('C166','proved',q('Ecl.Whole.','first_vision_sample vision_start_certain gps_has_no_weight vision_takes_back_gps_start')+q('Ecl.Aid.','vision_start_unset gps_start_remembers'),'real arithmetic; horizontal position uncorrelated with the other states, as every reset leaves it. Findings')
c('C167','proved',q('Ecl.Aid.','gps_velocity_reported disabled_gps_reads_stale gps_position_reported without_aiding_gps_reports_fake vision_velocity_reported vision_position_reported first_odometry_sample_reports_old_innovation aux_velocity_reported idle_vision_reads_zero idle_gps_velocity_reads_zero aux_never_cleared'),'numbers over any linearly ordered field; the numbers of a sample are inputs')
c('C168','proved',q('Ecl.Aid.','remembered_velocity remembered_variance aux_hides_wrong_heading'),'')
c('C169','proved',q('Ecl.Whole.','gps_reset_then_fused gps_reset_no_lever_arm gps_reset_leaves_half_lever_arm'),"real arithmetic; the sample's attitude is the one after any yaw reset; no bad-vertical-acceleration flag; starting with optical flow in use resets no velocity and is not covered")
c('C170','proved',q('Ecl.Whole.','recorded_reset_done gps_aiding_recovers gps_aiding_only_fuses gps_no_unnoticed_divergence'),'GpsClosed.lean: decisions (Aid) and numbers (Whole) in one loop; accuracies of the sample between 1 mm and 1 km; divergence: induction over the flight.')
c('C171','proved',q('Ecl.Whole.','height_reset_then_fused height_reset_error height_reset_var_le height_switch_step'),'Exact result of reset and fusion in one step, lower bound on the remaining error, and the step of a switch to GPS. Fusions of other data between the two are not part of the step. Ground effect compensation off for the barometer.')
c('C172','proved',q('Ecl.RangeFinder.','range_step_healthy range_step_none range_step_height range_step_configured range_corrected_once'),'The conversion of the hysteresis to an integer is the floor for values below 2^64.')
c('C173','proved',q('Ecl.Aid.','vision_sample vision_velocity_ignored_forever vision_velocity_ignored_reachable'),'exact effects of controlExternalVisionFusion on log, events and timers; finding for histories without GPS, flow, auxiliary velocity and magnetometer')
c('C174','proved',q('Ecl.Fusion.NaN.','nan_accepted nan_mag_accepted nan_rejected finite_gates attitude_lost_forever one_nan_sample'),'Floats are a real or NaN, infinities and rounding not modelled; the covariance health checks are taken as passed.')
c('C175','proved',q('Ecl.Gps.NaN.','nan_checks_real accuracy_checks vspeed_check_dead hspeed_check_blind nan_receiver_good'),'Floats are a real or NaN; infinities and rounding not modelled.')
c('C176','proved',q('Ecl.Wind.NaN.','nan_detected nan_healed nan_restarts nan_start agree_airspeed agree_beta agree_update'),'Floats are a real or NaN; a quotient with denominator zero counts as NaN, infinities and rounding are not modelled; the sideslip sensitivity and the relative wind are arbitrary in the history theorem. The NaN airspeed case of nan_detected assumes an innovation variance that is not negative, which C50 guarantees for the estimator over the reals.')
c('C177','proved',q('Ecl.Gsf.','coarse_undecided coarse_restarts coarse_main fine_decides'),'Floats are reals, as in C52. The threshold 57 is not sharp.')
c('C178','proved',q('Ecl.Terrain.NaN.','nan_healed nan_flow_ignored nan_variance_published agree_step'),'Floats are a real or NaN; a quotient with denominator zero counts as NaN, infinities and rounding are not modelled. The down position of the main filter, range and parameters are numbers; the line of sight sensitivities are arbitrary numbers.')
#--MORE--
here=os.path.dirname(os.path.abspath(__file__))
json.dump({"claims":C},open(os.path.join(here,"..","MANIFEST.json"),"w"),indent=1)
print(len(C),"claims")
