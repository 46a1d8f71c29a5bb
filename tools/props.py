#!/usr/bin/env python3
# Source of properties.jsonl (run: python3 tools/props.py)
import json,os
P=[]
def p(id,title,statement,quantifier,why,anchors):
    P.append(dict(id=id,title=title,statement=statement,quantifier=quantifier,why_tests_cant=why,anchors=anchors))

p("C01","Ring buffer behaves as a bounded FIFO of the most recent samples",
  "After any history of allocate/push/pop calls on a buffer of capacity n (1..255), the live content equals what an abstract queue that keeps only the newest n unconsumed samples would hold; get_newest/get_oldest return its last/first element and no call ever touches memory outside the n slots.",
  "every capacity 1..255, every finite sequence of push and pop_first_older_than calls with arbitrary timestamps and payloads",
  "the interesting states are reached only by particular interleavings of pushes, pops and wrap-arounds of an arbitrary-length history; unit tests sample a few",
  ["EKF/RingBuffer.h: RingBuffer::push, pop_first_older_than, get_newest, get_oldest, allocate"])
p("C02","pop_first_older_than returns the newest eligible sample and discards exactly it and everything older",
  "For a query time ts of at least 100 ms, the call succeeds iff some live sample s has s.time <= ts < s.time + 100 ms; it then returns the newest such sample unchanged, and afterwards the live content is exactly the samples that were newer than it; on failure the live content is unchanged. In particular no sample is ever delivered twice.",
  "every reachable buffer state and every query timestamp",
  "needs all buffer states times all 64-bit timestamps, including ones where the queue wrapped",
  ["EKF/RingBuffer.h: RingBuffer::pop_first_older_than"])
p("C03","Query times below 100 ms re-deliver consumed slots",
  "The FIFO contract needs query times of at least 100 ms: there is a reachable buffer and a query below 100 ms for which pop_first_older_than delivers a sample that has already been consumed (its slot is only marked by time_us = 0).",
  "existence of a reachable history (refutation of the unrestricted contract)",
  "a test would have to know the offending history; the statement is about the unrestricted contract being false",
  ["EKF/RingBuffer.h: RingBuffer::pop_first_older_than"])
p("C04","AlphaFilter output stays inside the hull of its inputs and follows the first-order closed form",
  "With weight a in [0,1], after any input sequence the filter state is (1-a)^n x0 + sum a(1-a)^(n-1-k) u_k; hence it never leaves the interval spanned by the initial state and the inputs, and for constant input u the error shrinks by exactly (1-a) per update (so it converges to u for 0<a<=1).",
  "every weight, initial state and finite input sequence",
  "quantifies over all sequences and lengths",
  ["AlphaFilter/AlphaFilter.hpp: AlphaFilter::update, reset, setAlpha"])
p("C05","AlphaFilter::setParameters yields a weight in [0,1] or leaves the filter unchanged",
  "For non-negative sample interval and time constant, setParameters either sets the weight to interval/(interval+constant), which lies in [0,1], or (when their sum is not above float epsilon) leaves the previous weight; it never divides by zero.",
  "all non-negative real parameter pairs",
  "boundary at the epsilon and all real pairs",
  ["AlphaFilter/AlphaFilter.hpp: AlphaFilter::setParameters"])
p("C06","IMU down-sampler loses no time, no rotation and no clipping flag",
  "Over any sequence of IMU samples, the samples emitted so far plus the pending accumulator account exactly for all input: total delta_ang_dt and delta_vel_dt are preserved, each emitted sample's attitude increment is the ordered product of the increments of the samples in its group, a clipping flag is set on an output iff it was set on at least one sample of the group, and the output time stamp is that of the group's last sample.",
  "every finite sequence of IMU samples and every target interval",
  "accumulation over unbounded histories",
  ["EKF/imu_down_sampler.cpp: ImuDownSampler::update, reset","EKF/imu_down_sampler.hpp: getDownSampledImuAndTriggerReset"])
p("C07","IMU down-sampler output interval is bounded",
  "With target interval T>0 and input intervals in [0,d], the internal timing correction stays in [-T/2,T/2], every emitted sample spans at least T/2 and less than 3T/2 + d, and no emission is withheld once 3T/2 has been accumulated.",
  "every input sequence with bounded intervals",
  "invariant over unbounded histories of the timing correction",
  ["EKF/imu_down_sampler.cpp: ImuDownSampler::update"])
p("C08","A range finder sample is declared healthy only if every documented check passes",
  "After runChecks, isDataHealthy implies: the sample is ready, at most 400 ms old (modular age), the filtered data interval is below 2 s, quality is non-zero and no zero-quality sample was seen within the hysteresis time, tilt cosine is above the configured minimum, range is within limits, and the stuck detector is not tripped; conversely those conditions imply it is healthy.",
  "every sensor state, sample, time and attitude",
  "conjunction of many thresholds over all 64-bit times and all histories",
  ["EKF/sensor_range_finder.cpp: runChecks, updateValidity","EKF/sensor_range_finder.hpp: isDataHealthy"])
p("C09","Range finder stuck detection",
  "After more than 10 s without a valid sample, a sequence of in-range samples whose spread never exceeds 0.1 m is never declared valid, however long; validity returns only after the recorded maximum and minimum differ by more than 0.1 m.",
  "every sequence of samples after a 10 s gap",
  "unbounded sequences of readings",
  ["EKF/sensor_range_finder.cpp: updateStuckCheck, updateValidity"])
p("C10","Range finder data-interval filter stays bounded",
  "The filtered sample interval always stays within [0, 4 s] whatever the timestamps are (including sample times later than the current time), and isRegularlySendingData is true exactly if the age is at most 400 ms and that filter is below 2 s.",
  "every history of runChecks calls with arbitrary timestamps",
  "all 64-bit timestamps, unbounded histories",
  ["EKF/sensor_range_finder.cpp: updateDtDataLpf, isSampleOutOfDate"])
p("C11","Sensor data rate limiting",
  "Of any sequence of samples offered through setAirspeedData/setRangeData/setOpticalFlowData/setExtVisionData/setAuxVelData, two consecutively accepted samples are always more than the minimum observation interval apart (modulo 2^64), samples are accepted in arrival order, and each pushed sample equals the offered one except for its time stamp.",
  "every sequence of offered samples with arbitrary timestamps",
  "unbounded sequences with arbitrary timestamps",
  ["EKF/estimator_interface.cpp: setAirspeedData, setRangeData, setOpticalFlowData, setExtVisionData, setAuxVelData"])
p("C12","Magnetometer and barometer down-sampling averages every sample exactly once",
  "While fewer than 256 samples are collected between two accepted ones, each pushed mag/baro value is the arithmetic mean of exactly the samples received since the previous push; with 256 or more the 8-bit counter wraps and the mean is wrong (and at exactly 256 the time average divides by zero).",
  "every sequence of samples between two pushes, of any length",
  "needs arbitrary group lengths including 256",
  ["EKF/estimator_interface.cpp: setMagData, setBaroData","EKF/estimator_interface.h: _mag_sample_count, _baro_sample_count"])
p("C13","Buffer sizing from the configured delays",
  "If the largest configured delay is positive and at most 2540 ms, the IMU buffer has ceil(maxdelay/10)+1 slots, so consecutive EKF updates keep every IMU sample for at least maxdelay; the observation buffer has between 1 and that many slots; if all delays are zero the observation length is zero and every sensor buffer allocation is skipped or rejected.",
  "all delay and interval parameters",
  "all real parameter values",
  ["EKF/estimator_interface.cpp: initialise_interface"])
p("C14","Minimum observation interval never divides by zero",
  "setIMUData computes the minimum observation interval without dividing by zero. (Refuted: an observation buffer length of one, e.g. maximum delay 10 ms with the default sensor interval 20 ms, divides by zero; proved for every configuration whose observation length differs from one.)",
  "all parameter sets",
  "needs the set of all parameter combinations",
  ["EKF/estimator_interface.cpp: setIMUData, initialise_interface"])
p("C15","Observation time stamps are shifted back by delay plus half a filter period",
  "A pushed observation's time stamp equals the sensor time minus the configured delay minus 5 ms up to float rounding: the subtraction is performed in single precision, so it is exact below 2^24 us (16.8 s) and otherwise off by at most one float ulp of the time; from 2^24 us on there are time stamps with non-zero error, growing without bound in absolute terms.",
  "all 64-bit sensor times and delays",
  "all times; tests use short simulations where the rounding is invisible",
  ["EKF/estimator_interface.cpp: setMagData ... setAuxVelData (time_us -= delay*1000)"])
p("C16","Vehicle-at-rest detection",
  "vehicle_at_rest is reported only on ground and only after every IMU sample of more than the last second was below all three movement thresholds; any sample above a threshold, or being in air, withdraws it immediately and for the following second.",
  "every history of IMU samples with non-decreasing timestamps",
  "unbounded histories",
  ["EKF/estimator_interface.cpp: checkIfVehicleAtRest, computeVibrationMetric"])
p("C17","Horizontal aiding source counting",
  "isHorizontalAidingActive is true iff at least one of GPS, optical flow, vision position, vision velocity or combined airspeed+sideslip is active; for a source flag f, isOnlyActiveSource(f) and isOtherSourceThan(f) are mutually exclusive, and isOnlyActiveSource(f) holds iff f is active and no other source is.",
  "all 2^6 flag combinations, as a logical statement over flags",
  "exhaustive statement about all combinations",
  ["EKF/estimator_interface.cpp: getNumberOfActiveHorizontalAidingSources, isOnlyActiveSourceOfHorizontalAiding, isOtherSourceOfHorizontalAidingThan"])
p("C18","Average IMU interval and filter interval stay physical",
  "Whatever timestamps are supplied, the averaged IMU interval (which starts at zero) is at most 20 ms and at least 0.02 ms from the first non-zero time stamp on, and stays within [0.1 ms, 20 ms] once there; the average filter interval stays within [5 ms, 20 ms].",
  "every sequence of IMU timestamps",
  "all 64-bit sequences",
  ["EKF/estimator_interface.cpp: setIMUData","EKF/ekf.cpp: predictState"])
p("C19","At most one height source is active",
  "In every state reached through the height mode switches exactly the selected one of barometer, GPS, range finder and vision height is flagged; in no reachable control state is more than one flagged.",
  "every sequence of height control decisions from any initial mode",
  "all interleavings of sensor failures and recoveries",
  ["EKF/ekf_helper.cpp: setControlBaroHeight, setControlRangeHeight, setControlGPSHeight, setControlEVHeight, stopGpsFusion","EKF/control.cpp: controlHeightFusion, controlHeightSensorTimeouts"])
p("C20","Losing GPS can leave the filter without any height source",
  "Stopping GPS fusion while GPS height is in use clears the height source without selecting another one. With GPS configured as primary height source and no range aiding no code path of the height controller ever selects a source again, even when good GPS data return: no height is fused and no height reset happens.",
  "existence of a reachable control state and all its continuations",
  "claim about all continuations of an execution",
  ["EKF/ekf_helper.cpp: stopGpsPosFusion","EKF/control.cpp: controlHeightFusion, controlHeightSensorTimeouts"])
p("C21","State resets are reported exactly and shift the output predictor consistently",
  "Every reset of horizontal/vertical velocity or position changes the EKF state, the current output and every stored output state by the same vector, reports exactly that vector through get_velNE_reset/get_velD_reset/get_posNE_reset/get_posD_reset, and increments the corresponding counter by one modulo 256, leaving all other state components and counters unchanged.",
  "every estimator state, buffer content and reset target",
  "all buffer lengths and contents",
  ["EKF/ekf_helper.cpp: resetHorizontalVelocityTo, resetVerticalVelocityTo, resetHorizontalPositionTo, resetVerticalPositionTo"])
p("C22","Output predictor tracking error is invariant under resets",
  "The difference between each buffered output state and the EKF state is unchanged by a position or velocity reset, so a reset never injects a tracking transient.",
  "every buffer content and reset",
  "all histories",
  ["EKF/ekf_helper.cpp: reset*To"])
p("C23","State limits after prediction and fusion",
  "After constrainStates every state component is within its documented limit (quaternion +-1, velocity +-1000 m/s, position +-1e6 m, gyro bias, accel bias, earth and body field, wind limits), components within limits are unchanged, and the operation is idempotent.",
  "every state vector",
  "all real state vectors",
  ["EKF/ekf_helper.cpp: constrainStates"])
p("C24","A healthy scalar fusion keeps the covariance symmetric, positive semi-definite and never increases a variance",
  "In exact arithmetic, if the covariance is symmetric positive semi-definite and the measurement variance is positive, then updating with the optimal gain yields a symmetric positive semi-definite matrix, no diagonal element grows or becomes negative, and hence the health check never rejects such an update.",
  "every state dimension, covariance, observation row and noise variance",
  "universally quantified matrix inequality",
  ["EKF/ekf.h: measurementUpdate, computeKHP","EKF/vel_pos_fusion.cpp: fuseVelPosHeight","EKF/covariance.cpp: checkAndFixCovarianceUpdate"])
p("C25","Covariance health check",
  "A measurement update is applied iff no diagonal element of the covariance is below the corresponding element of the correction; otherwise the state vector is untouched, exactly the offending rows and columns are zeroed, and the fusion reports failure.",
  "every covariance and correction matrix",
  "all 24x24 matrices",
  ["EKF/covariance.cpp: checkAndFixCovarianceUpdate","EKF/ekf.h: measurementUpdate"])
p("C26","Covariance limits",
  "After fixCovarianceErrors every attitude, velocity, position, gyro-bias, field and wind variance is within its documented interval; a learning accelerometer-bias variance is raised to max(largest/100, 5e-8) or else capped at (0.1 g dt)^2 (finding: the raised value is not itself capped); covariances of unused magnetic-field and wind states are exactly zero, and a symmetric matrix stays symmetric; with forced symmetry the result is symmetric in the enforced blocks.",
  "every covariance matrix and every flag combination",
  "all matrices",
  ["EKF/covariance.cpp: fixCovarianceErrors"])
p("C27","Covariance prediction is F P F^T + G Q G^T",
  "For every symmetric P, attitude, IMU increment and bias, each element computed by the auto-generated covariance prediction equals the corresponding element of F P F^T + G Q G^T (+ process noise), where F and G are the exact Jacobians of the strap-down equations.",
  "all states, inputs and symmetric covariances",
  "the 300 generated expressions are compared in tests only at a few numeric points",
  ["EKF/covariance.cpp: predictCovariance"])
p("C28","Magnetometer fusion uses the exact Jacobian, innovation variance and Kalman gain",
  "For each axis, fused one after the other with the innovation computed beforehand, the observation row equals the derivative of the predicted body-frame field, the innovation variance equals H P H^T + R, and the gain equals P H^T divided by it, for all attitudes, fields and symmetric covariances.",
  "all states and symmetric covariances",
  "generated expressions tested at few points only",
  ["EKF/mag_fusion.cpp: fuseMag"])
p("C29","Airspeed fusion uses the exact Jacobian, innovation variance and gain",
  "For predicted airspeed of at least 1 m/s: observation row = gradient of airspeed, innovation variance = H P H^T + R with R in [0.2025, 2500], gain = P H^T / S for the corrected states and zero for the others.",
  "all states and symmetric covariances",
  "generated expressions tested at few points only",
  ["EKF/airspeed_fusion.cpp: fuseAirspeed"])
p("C30","Sideslip fusion uses the exact Jacobian, innovation variance and gain",
  "Observation row = gradient of the body-frame velocity ratio v/u, innovation variance = H P H^T + R, gain = P H^T / S for the corrected states.",
  "all states with non-zero forward speed and symmetric covariances",
  "generated expressions tested at few points only",
  ["EKF/sideslip_fusion.cpp: fuseSideslip"])
p("C31","Optical flow fusion uses the exact Jacobian, innovation variance and gain",
  "For both axes: observation row = gradient of line-of-sight rate at fixed range, innovation variance = H P H^T + R; the X gain is P H^T / S; the Y gain uses the row, variance and attitude/velocity covariances from before the X fusion but, for the remaining states, the covariance after it (so it is not the Kalman gain of either); badly conditioned or rejected samples change no state.",
  "all states with non-zero range and symmetric covariances",
  "generated expressions tested at few points only",
  ["EKF/optflow_fusion.cpp: fuseOptFlow"])
p("C32","Drag fusion corrects only the wind states with the exact gain",
  "For both axes: observation row = gradient of -Kacc times body-frame relative wind, innovation variance = H P H^T + R, wind gains = P H^T / S, all other gains zero.",
  "all states and symmetric covariances",
  "generated expressions tested at few points only",
  ["EKF/drag_fusion.cpp: fuseDrag"])
p("C33","Yaw fusion Jacobians",
  "Both computational paths of the 321 and 312 yaw fusion compute the exact gradient of the respective Euler yaw, they agree whenever both are usable, and GPS antenna yaw fusion uses the exact gradient of antenna heading, innovation variance H P H^T + R and gain P H^T / S.",
  "all quaternions where the path is selected",
  "generated expressions tested at few points only",
  ["EKF/mag_fusion.cpp: fuseYaw321, fuseYaw312, updateQuaternion","EKF/gps_yaw_fusion.cpp: fuseGpsYaw"])
p("C34","Declination fusion and limiting",
  "Declination fusion uses the exact gradient of atan2(E,N), variance and gain; after declination limiting the horizontal field strength is at least the minimum and the declination estimate is within 0.5 rad of the reference (when the reference interval lies inside the principal range).",
  "all magnetic field states and references",
  "all real inputs",
  ["EKF/mag_fusion.cpp: fuseDeclination, limitDeclination"])
p("C35","Rejected observations change nothing",
  "If an innovation consistency check fails (and no override applies) then state and covariance are unchanged, the rejection flag is set and the fusion time stamp is not refreshed; if it passes the flag is cleared.",
  "every innovation, gate, variance",
  "all reals",
  ["EKF/vel_pos_fusion.cpp: fuseHorizontalVelocity, fuseVerticalVelocity, fuseHorizontalPosition, fuseVerticalPosition"])
p("C36","A NaN innovation in one horizontal axis is not fused",
  "A horizontal velocity/position observation with a NaN component must not be fused. (Refuted: the maximum of the test ratios is computed with fmaxf, which ignores NaN, so one NaN axis passes the gate; proved when both are NaN: the gate rejects.)",
  "all float values including NaN",
  "NaN handling at one particular comparison",
  ["EKF/vel_pos_fusion.cpp: fuseHorizontalVelocity"])
p("C37","GPS quality gate needs 10 s of uninterrupted good data",
  "gps_is_good returns true only if fix type, and every enabled check (satellites, PDOP, horizontal/vertical/speed accuracy, drift, speed) has passed for more than min_gps_health_time since the last failure; any enabled failing check makes it false immediately.",
  "every history of GPS messages and every check mask",
  "unbounded histories times all masks",
  ["EKF/gps_checks.cpp: gps_is_good, collect_gps"])
p("C38","The local origin is set at most once by GPS",
  "Once the origin has been initialised by GPS no later GPS message moves it; it is set only by a message for which the quality gate holds.",
  "every history of GPS messages",
  "unbounded histories",
  ["EKF/gps_checks.cpp: collect_gps"])
p("C39","Rotation utilities produce proper rotations",
  "taitBryan312ToRotMat yields an orthonormal matrix with determinant one for every angle triple; quatToInverseRotMat is the transpose of the direction cosine matrix and orthonormal for unit quaternions; replacing the yaw keeps orthonormality, sets exactly the requested yaw and keeps the tilt (third row).",
  "all real angles and quaternions",
  "all real inputs",
  ["EKF/utils.cpp","EKF/utils.hpp"])
p("C40","Kahan summation is exact in exact arithmetic and compensates",
  "kahanSummation returns sum plus input plus the pending compensation and leaves zero compensation in exact arithmetic; for any rounding function the returned pair satisfies the compensation identity.",
  "all reals, any rounding",
  "all reals",
  ["EKF/utils.cpp: kahanSummation"])
p("C41","Local projection round trip",
  "For an initialised reference, reproject(project(lat,lon)) returns the original coordinates for every point that is not the reference's antipode, and project(reproject(x,y)) returns (x,y) whenever sqrt(x^2+y^2) < pi R; the projection of the reference is the origin; the projected distance equals the great-circle distance.",
  "all reference and target coordinates",
  "all real coordinates",
  ["geo/geo.cpp: map_projection_project, map_projection_reproject, map_projection_init"])
p("C42","Projection refuses uninitialised references",
  "With an uninitialised reference project and reproject return -1 and leave outputs untouched; after init they return 0, and init stores the reference in radians.",
  "all inputs and reference states",
  "all states",
  ["geo/geo.cpp: map_projection_*"])
p("C43","Great-circle distance is a metric-like quantity",
  "get_distance_to_next_waypoint is symmetric, non-negative, zero for equal points, at most pi R, and equal to R times the central angle.",
  "all coordinate pairs",
  "all real coordinates",
  ["geo/geo.cpp: get_distance_to_next_waypoint"])
p("C44","waypoint_from_heading_and_distance places the point at the requested distance and bearing",
  "The computed point has great-circle distance |d| mod (full circle) folded into [0, pi R]; for |d| <= pi R it is exactly |d|.",
  "all starting points off the poles, bearings and distances",
  "all reals",
  ["geo/geo.cpp: waypoint_from_heading_and_distance"])
p("C45","Small-offset vector helpers are inverse to each other",
  "get_vector_to_next_waypoint_fast(p, add_vector_to_global_position(p,v)) = v for every p whose latitude is not a pole.",
  "all positions and offsets",
  "all reals",
  ["geo/geo.cpp: add_vector_to_global_position, get_vector_to_next_waypoint_fast"])
p("C46","Geomagnetic table lookup never leaves the tables",
  "For every finite latitude in [-90,90] and longitude in [-540,540] the four table cells used are inside the 19x37 tables, for every input (any finite) indices are in range, and the result lies between the smallest and largest of the four corner values.",
  "all finite coordinates",
  "all reals, including seams",
  ["geo_lookup/geo_mag_declination.cpp: get_table_data, get_lookup_table_index"])
p("C47","Geomagnetic lookup is exact at grid nodes and continuous",
  "At each 10 degree grid node the interpolated value equals the table entry, and along cell borders the values from both neighbouring cells coincide; values at longitude -180 and +180 agree.",
  "all nodes and all border points",
  "all reals on borders",
  ["geo_lookup/geo_mag_declination.cpp: get_table_data"])
p("C48","Terrain estimator keeps a plausible terrain state",
  "After each prediction the terrain variance is in [0, 1e4] and grows monotonically with elapsed time; in air the terrain estimate stays at least the minimum ground clearance below the vehicle; a range fusion never increases variance and moves the estimate towards the measurement.",
  "every sequence of terrain predictions and fusions",
  "unbounded histories",
  ["EKF/terrain_estimator.cpp: runTerrainEstimator, predictHagl, fuseHagl, controlHaglFakeFusion"])
p("C49","Terrain validity window",
  "The terrain estimate is reported valid only if range or flow terrain fusion succeeded within the last 5 s.",
  "every history",
  "all 64-bit times",
  ["EKF/terrain_estimator.cpp: updateTerrainValidity"])
p("C50","Wind estimator covariance stays symmetric with non-negative, limited variances",
  "After any sequence of public calls on a fresh wind estimator, whenever it reports a valid estimate the covariance is symmetric, no variance is negative and the scale factor is not negative; directly after every accepted measurement the variances are at most 25 (wind) and 0.1 (scale) and an enforced non-negative scale factor is in force. (These limits are not in force at other times, and limiting a variance alone can make the matrix indefinite.)",
  "every sequence of wind estimator calls",
  "unbounded histories",
  ["airdata/WindEstimator.cpp: run_sanity_checks, update, initialise, fuse_airspeed, fuse_beta"])
p("C51","Wind estimator timing gates",
  "Prediction is executed at most once per second and each kind of fusion at most once per 100 ms of input time, whatever other calls come in between; a valid estimate is restarted only if the innovation variance is negative or measurements of that kind have been rejected without exception for more than 5 s. (A time stamp that goes backwards defeats the gates.)",
  "every call history and time stamp sequence",
  "all 64-bit sequences, unbounded histories",
  ["airdata/WindEstimator.cpp: update, fuse_airspeed, fuse_beta, check_if_meas_is_rejected"])
p("C52","Yaw estimator weights form a probability distribution",
  "Whenever velocity fusion has started, the five model weights are positive and sum to one; if all innovation densities underflow the bank is re-initialised.",
  "every sequence of yaw estimator updates",
  "unbounded histories",
  ["EKF/EKFGSF_yaw.cpp"])
p("C53","Yaw estimator covariance propagation and update are the exact EKF equations",
  "The generated 3x3 prediction equals F P F^T + G Q G^T and the generated update equals the Kalman update P - K S K^T with K = P H^T S^-1, for all symmetric P.",
  "all states and symmetric covariances",
  "generated expressions",
  ["EKF/EKFGSF_yaw.cpp: predictEKF, updateEKF"])
p("C54","Yaw estimator gains and biases are bounded",
  "The tilt correction gain is within [0, 0.2], gyro bias estimates within +-0.05 rad/s, and model variances at least 1e-6.",
  "every history",
  "unbounded histories",
  ["EKF/EKFGSF_yaw.cpp: ahrsCalcAccelGain, ahrsPredict, updateEKF"])
p("C55","Magnetometer fusion modes are mutually exclusive",
  "In every history from power-up, heading fusion and 3-axis fusion are never active at the same time and never run in the same cycle; with type NONE from the start the magnetometer is never used; a declared magnetometer fault is permanent and stops all use; the mode chosen for each type is as configured (3-axis only in the air, observable and aligned). Findings: a strong field disturbance does not stop 3-axis fusion; the declination flag stays set after a fault; switching the type to NONE at run time leaves heading fusion running.",
  "every sequence of mag control decisions",
  "all interleavings",
  ["EKF/mag_control.cpp","EKF/ekf_helper.cpp: startMagHdgFusion, startMag3DFusion, stopMagFusion"])
p("C56","Fault and solution status words",
  "get_ekf_soln_status and fault reset treat every fault flag. (Refuted: the fault word is 18 flags wide but is stored, cleared and compared as 16 bits, so bad_acc_vertical and bad_acc_clipping are never cleared by re-initialisation and never affect the status; proved for the first 16 flags.)",
  "all flag combinations",
  "all 2^18 combinations",
  ["EKF/common.h: fault_status_u","EKF/ekf_helper.cpp: get_ekf_soln_status","EKF/estimator_interface.cpp: initialise_interface"])
p("C57","Dead-reckoning status",
  "wind dead reckoning and inertial dead reckoning are never reported together with recent horizontal aiding, and the dead-reckoning error report becomes true only after the configured time without aiding.",
  "every timestamp combination",
  "all 64-bit times",
  ["EKF/ekf_helper.cpp: update_deadreckoning_status"])
p("C58","Timeout predicates",
  "isTimedOut and isRecent never both hold, and exactly one holds except when the elapsed time equals the interval, in which case neither does.",
  "all 64-bit times",
  "all times",
  ["EKF/ekf.h: isTimedOut, isRecent"])
p("C59","Emergency yaw reset limits",
  "While GPS aiding is active, emergency yaw resets from the yaw estimator happen at most the configured number of times and only with fresh GPS data, after take-off conditions; any two resets without a new origin in between are at least 5 s apart. (Refuted in general: resets made while GPS aiding is off are not counted, a limit above 255 has no effect because the counter is 8 bits wide, and setting the origin with type NONE clears the 5 s spacing.)",
  "every control history",
  "unbounded histories",
  ["EKF/control.cpp: shouldResetGpsFusion/controlGpsFusion; EKF/ekf_helper.cpp: resetYawToEKFGSF"])
p("C60","Increase of yaw variance keeps a valid covariance",
  "increaseQuatYawErrVariance adds a symmetric positive semi-definite matrix to the quaternion block and changes nothing else.",
  "all covariances and variances",
  "matrix inequality for all inputs",
  ["EKF/ekf_helper.cpp: increaseQuatYawErrVariance"])
p("C61","Integer power helper computes the power",
  "ecl::powf(x, n) equals x to the integer power n for every base and exponent (negative exponents give the reciprocal).",
  "all reals and integer exponents",
  "all exponents",
  ["EKF/utils.cpp: ecl::powf"])
p("C62","Range finder boresight projection",
  "The sensor's vertical projection used by the range finder (from vehicle attitude and configured sensor pitch offset) equals the down component of the rotated boresight.",
  "all attitudes and offsets",
  "all real angles",
  ["EKF/sensor_range_finder.cpp: updateSensorToRangeFinder / runChecks","EKF/sensor_range_finder.hpp: setPitchOffset"])
p("C63","Bias variance outputs are the variances of the bias outputs",
  "getGyroBiasVariance/getAccelBiasVariance should return the variance of the value returned by getGyroBias/getAccelBias, i.e. the state variance divided by the squared filter interval. (Refuted: they divide by the interval only, under-reporting the variance by a factor of at least 50.)",
  "all covariances and filter intervals",
  "a scaling law between two outputs for all values",
  ["EKF/ekf.h: getGyroBias, getGyroBiasVariance, getAccelBias, getAccelBiasVariance"])
p("C64","Drag data down-sampling",
  "The IMU data are cut into consecutive groups of max(5, IMU/observation buffer ratio) samples; each finished group yields exactly one drag sample: total velocity change over total time with the mean time stamp.",
  "every sequence of IMU samples",
  "unbounded sequences",
  ["EKF/estimator_interface.cpp: setDragData"])
p("C65","Vibration metrics",
  "The three vibration metrics are exactly first-order low-pass filters (weight 0.01) of the norm of consecutive delta-angle cross products, of delta-angle changes and of delta-velocity changes, and stay within the bounds of these norms.",
  "every sequence of IMU samples",
  "unbounded sequences",
  ["EKF/estimator_interface.cpp: computeVibrationMetric"])
p("C66","A yaw reset changes the yaw only and is reported exactly",
  "A yaw reset gives the attitude estimate the requested yaw (in the yaw convention selected for the attitude) and preserves the tilt (down direction in body axes); the reported quaternion change maps the old attitude onto the new one, the quaternion reset counter goes up by one modulo 256, velocity, position, bias, field and wind states are untouched, and if requested every stored output attitude is rotated so that the output tracking error is unchanged.",
  "every unit attitude, every requested yaw in (-pi,pi], every buffer content",
  "all attitudes including singular ones of either yaw convention",
  ["EKF/ekf_helper.cpp: resetQuatStateYaw"])
p("C67","Output filter alignment puts the delayed output on the EKF state",
  "alignOutputFilter makes the oldest stored output equal to the EKF state (attitude, velocity, position), makes the current output equal to the newest stored one, shifts all stored velocities and positions by the same amount, and preserves relative attitudes between stored outputs.",
  "every non-empty output buffer with unit attitudes and every unit-attitude EKF state",
  "all buffer lengths and contents",
  ["EKF/ekf_helper.cpp: alignOutputFilter"])
p('C68',
  'Strap-down prediction',
  'The prediction keeps the attitude quaternion unit, advances it by the delta angle corrected for bias and earth rotation, adds the bias-corrected delta velocity rotated by the new attitude plus gravity, and integrates position by the trapezoidal rule; for a non-rotating vehicle under constant acceleration with correct biases the predicted position and velocity are exact after any number of samples of any durations (in particular a vehicle at rest stays at rest), as long as no state limit is reached.',
  'every IMU sample sequence and every state',
  'sequences of arbitrary length and duration',
  ['EKF/ekf.cpp: Ekf::predictState', 'EKF/ekf_helper.cpp: constrainStates, calcEarthRateNED'])
p('C69',
  'Initial tilt alignment',
  'Tilt initialisation succeeds iff the averaged specific force is within 20% of gravity and the averaged rate is at most 15 deg/s; it then yields a unit attitude with zero yaw that maps the averaged specific force to straight up.',
  'every averaged accelerometer and gyro vector',
  'all vectors including vertical nose',
  ['EKF/ekf.cpp: Ekf::initialiseTilt'])
p('C70',
  'Output predictor',
  'Between EKF updates the output is a strap-down solution driven by the newest IMU data; at an EKF update it is appended to the history and the whole history plus the current output is shifted by one common velocity and one common position correction derived from the tracking error at the oldest entry, with gains in (0,1] for any time constant; the attitude correction is bounded, insensitive to the quaternion sign, and vanishes when the output tracks; no memory access error is possible.',
  'every history, IMU sample, EKF state and parameter set',
  'all buffer lengths and contents',
  ['EKF/ekf.cpp: calculateOutputStates, applyCorrectionToOutputBuffer, calculate_quaternion'])
p('C71',
  'Alternative vertical output',
  'The vertical correction adds the same velocity correction to every stored sample, keeps the oldest height and re-integrates all heights from the corrected velocities with the trapezoidal rule; with a single-slot history it is not applied.',
  'every history with at least two slots, every correction',
  'all ring buffer positions including wrap-around',
  ['EKF/ekf.cpp: applyCorrectionToVerticalOutputBuffer'])
p('C72',
  'Inhibited bias axes can break covariance validity',
  'With an accelerometer-bias axis inhibited, an accepted and optimally weighted measurement can turn a valid covariance that is within all limits into an indefinite one, because the gain row is zeroed and mirrored elements are averaged (negative property, shown by witness).',
  'existential over covariance matrices and measurements',
  'quantifies over all covariance matrices, flags and sequences; tests sample a few',
  ['EKF/ekf.h: Ekf::measurementUpdate', 'EKF/covariance.cpp: Ekf::fixCovarianceErrors'])
p('C73',
  'Variance capping can break covariance validity',
  'Limiting variances without scaling the covariances can turn a valid covariance into an indefinite one (negative property, shown by witness); C79 gives the condition under which it cannot.',
  'existential over covariance matrices',
  'quantifies over all covariance matrices, flags and sequences; tests sample a few',
  ['EKF/covariance.cpp: Ekf::fixCovarianceErrors'])
p('C75',
  'Wind covariance reset',
  'Resetting the wind covariance removes every correlation with other states; with airspeed less than 0.5 s old the wind covariance is airspeed error along the heading, 15 degree sideslip error across it, 10 degree yaw error acting on the wind and the velocity variances; otherwise both variances are the configured uncertainty. A valid covariance stays valid. The wind states themselves become the ground velocity minus the airspeed along the heading (zero without a recent airspeed). (Finding: the airspeed is taken as horizontal, so the airspeed reported after the reset is too large in a climb or sink.) (Finding: the configured uncertainty is used as a variance here and as a standard deviation at initialisation.)',
  'all attitudes, winds, airspeeds, noise parameters, covariances and time stamps',
  'quantifies over all covariance matrices, flags and sequences; tests sample a few',
  ['EKF/covariance.cpp: Ekf::resetWindCovariance'])
p('C76',
  'Magnetometer covariance is preserved across mode switches',
  'Switching from 3-axis to heading fusion and back reinstates the north/east field block and the four other field variances exactly, zeroes all other field covariances and touches nothing else; the two modes are exclusive; resets set all field variances to the squared noise and are what the next 3-axis start uses.',
  'all covariances, any change of the covariance while in heading mode',
  'quantifies over all covariance matrices, flags and sequences; tests sample a few',
  ['EKF/ekf_helper.cpp: Ekf::saveMagCovData, loadMagCovData, startMag3DFusion, startMagHdgFusion, stopMagFusion', 'EKF/covariance.cpp: Ekf::resetMagCov'])
p('C77',
  'Accelerometer bias learning inhibition',
  'At every covariance prediction, learning on an axis is inhibited exactly when the documented conditions hold (parameter, peak-hold rate or acceleration above limit, vertical accelerometer fault, axis far from vertical on ground, clipping); the variance is stored on entry and exactly reinstated on exit; after a manoeuvre inhibition persists while the decayed peak exceeds the limit.',
  'all IMU samples, parameters, covariances; all histories after a peak',
  'quantifies over all covariance matrices, flags and sequences; tests sample a few',
  ['EKF/covariance.cpp: Ekf::predictCovariance'])
p('C78',
  'Process noise bounds',
  'Field and wind process noise stop when the states are unused or their variances are already large; otherwise the values are the limited parameters; never negative; accelerometer noise is raised to 4.9 m/s2 exactly on clipped axes or on all axes during a vertical accelerometer fault.',
  'all parameters, flags and covariances',
  'quantifies over all covariance matrices, flags and sequences; tests sample a few',
  ['EKF/covariance.cpp: Ekf::predictCovariance'])
p('C79',
  'Covariance validity is an invariant of measurement updates',
  'From any symmetric positive semi-definite covariance within the limits, any sequence of optimally weighted scalar measurement updates without inhibited axes yields a symmetric positive semi-definite covariance within the limits.',
  'all covariances, all finite sequences of observation rows and positive variances, all flags',
  'quantifies over all covariance matrices, flags and sequences; tests sample a few',
  ['EKF/ekf.h: Ekf::measurementUpdate', 'EKF/covariance.cpp: Ekf::fixCovarianceErrors, checkAndFixCovarianceUpdate'])
p('C74',
  'Attitude covariance from rotation-vector uncertainty',
  'Initialising the attitude covariance gives G diag(v) G^T, G being the derivative of the quaternion with respect to the rotation vector of the current attitude (v/4 for a vanishing rotation), uncorrelated with all other states; a valid covariance stays valid.',
  'all unit quaternions, variances, covariances',
  'quantifies over all attitudes, parameters and covariances; floating-point tests sample a few',
  ['EKF/ekf_helper.cpp: Ekf::initialiseQuatCovariances', 'EKF/covariance.cpp: Ekf::resetQuatCov'])
p('C80',
  'Initial covariance',
  'At initialisation every non-attitude state has exactly the documented variance (parameter limited below, height by the active height source) and no correlations; the matrix is a valid covariance.',
  'all parameters, flags and attitudes',
  'quantifies over all attitudes, parameters and covariances; floating-point tests sample a few',
  ['EKF/covariance.cpp: Ekf::initialiseCovariance', 'EKF/ekf_helper.cpp: Ekf::getGpsHeightVariance'])
p('C81',
  'Bias resets',
  'Gyro and accelerometer bias resets zero the bias, set the initial-alignment variance, remove correlations and change nothing else. Finding: after a magnetometer bias reset in heading mode the next 3-axis start uses zero body-field variances.',
  'all covariances and parameters',
  'quantifies over all attitudes, parameters and covariances; floating-point tests sample a few',
  ['EKF/ekf_helper.cpp: Ekf::resetGyroBias, resetAccelBias, resetMagBias'])
p('C82',
  'Predicting a valid covariance gives a valid covariance',
  'If the state covariance is symmetric positive semi-definite, all noise settings give non-negative variances, states that are not being predicted are uncorrelated with later predicted states and the horizontal position variance is at most (100 m)^2, one covariance prediction returns a symmetric positive semi-definite matrix (before limiting). While position covariance growth is stopped this can fail.',
  'every covariance matrix, attitude, IMU sample, noise setting and flag combination',
  'a matrix property over a continuum of covariances and attitudes',
  ['EKF/covariance.cpp:Ekf::predictCovariance'])
p('C83',
  'Flow measurement variance interpolates with quality',
  'The optical flow observation variance is the square of the linear interpolation, by flow quality between the minimum acceptable quality and 255, of the two noise parameters, each at least 0.05 rad/s; it is never below 0.0025.',
  'all qualities and parameters',
  'parameter space is continuous',
  ['EKF/optflow_fusion.cpp: calcOptFlowMeasVar'])
p('C84',
  'Flow gyro bias estimate',
  "Body rate compensation always empties its accumulators, fails (keeping the bias) after more than 1 s of accumulation, replaces a non-finite sensor gyro by the filter's own rotation, otherwise low-pass filters the limited rate difference; over any history the bias stays within 0.1 rad/s, and at rest it converges to the bias of the flow gyro. (Finding: the sensor gyro and the reference rate have opposite sign conventions and the difference is taken without regard to that: with a perfect flow gyro and a constant body rate w the estimate approaches -2w, limited to 0.1 rad/s.)",
  'all sample histories',
  'unbounded histories',
  ['EKF/optflow_fusion.cpp: calcOptFlowBodyRateComp'])
p('C85',
  'Heading fusion observation selection',
  'Heading fusion uses the Euler sequence that is regular at the current attitude; the magnetic heading of an ideal magnetometer equals the yaw for every attitude (zero innovation); variance, measurement and stored static yaw follow the inhibited / moving / at-rest rules; inhibition while moving with small quaternion variance has no effect (refutation of the intent).',
  'all attitudes, magnetometer samples, declinations and flag combinations',
  'continuous attitude space and all mode combinations',
  ['EKF/mag_fusion.cpp: fuseHeading', 'EKF/utils.cpp: updateEuler321YawInRotMat, updateEuler312YawInRotMat, shouldUse321RotationSequence'])
p('C86',
  'Synthetic magnetometer Z',
  'The synthetic vertical magnetometer component equals the true one whenever the horizontal components are those of the earth field in the current attitude; otherwise its size is the missing part of the field strength and its sign that of the prediction.',
  'all fields and attitudes',
  'continuous inputs',
  ['EKF/mag_fusion.cpp: calculate_synthetic_mag_z_measurement'])
p('C87',
  'Euler yaw fusion and inhibited accelerometer bias',
  'Euler yaw fusion of a valid covariance is always applied and corrects every one of the first 16 states by (P H^T)/S times the innovation, including accelerometer bias states whose learning is inhibited; direct velocity and position observations do the same (observations applied through the common measurement update leave those alone).',
  'all covariances, rows and innovations',
  'needs all covariances',
  ['EKF/mag_fusion.cpp: updateQuaternion', 'EKF/ekf.h: measurementUpdate'])
p('C88',
  'Rejection bits of the innovation status word',
  'Each magnetometer and optical flow axis rejection is reported in the bit documented for it. (Refuted: both are written one position too low, so a magnetometer X rejection appears as a vertical position rejection, a passing X check erases a vertical position rejection, and the bits of magnetometer Z and flow Y are never written.)',
  'all words and all pass/fail combinations',
  'all bit patterns',
  ['EKF/mag_fusion.cpp: fuseMag', 'EKF/optflow_fusion.cpp: fuseOptFlow', 'EKF/common.h: innovation_fault_status_u'])
p('C89',
  'Reported position and velocity accuracy',
  'The reported accuracies are the square roots of the summed state variances (plus origin uncertainty for global position), raised to the size of the innovations of the sensors in use while dead reckoning; the global accuracy is never better than the local one.',
  'all covariances, innovations and sensor combinations',
  'all reals',
  ['EKF/ekf_helper.cpp: get_ekf_gpos_accuracy, get_ekf_lpos_accuracy, get_ekf_vel_accuracy'])
p('C90',
  'Vehicle control limits',
  'get_ekf_ctrl_limits limits height only when the filter relies on the range finder or on optical flow alone, horizontal speed only when it relies on optical flow alone, and never vertical speed, with the documented values; the speed limit is never negative.',
  'all sensor combinations and values',
  'all reals and flags',
  ['EKF/ekf_helper.cpp: get_ekf_ctrl_limits'])
p('C91',
  'Reported innovation test ratios',
  'A reported innovation test ratio exceeds 1 exactly if some measurement in its group exceeds its gate; the height ratio belongs to the height source in use. (When no height source is in use it is not written.)',
  'all test ratios and modes',
  'all reals',
  ['EKF/ekf_helper.cpp: get_innovation_test_status'])
p('C92',
  'Height source selection',
  'For each configured primary height source the source used at a step is a fixed function of range aiding suitability, data readiness, sensor health and the previous source: barometer primary uses range while range aiding applies, else the barometer; range primary uses range whenever its data are healthy; GPS primary returns from range or barometer to GPS when GPS is available and passed its checks; vision primary switches with a height reset when vision data are regular. Once in vision height the last vision sample is fused at every step, new or not.',
  'every configuration, sensor state and filter state',
  'all combinations of sensor states',
  ['EKF/control.cpp: controlHeightFusion'])
p('C93',
  'Height observations are consistent with their source',
  'The fused height innovation is the vertical position minus the offset corrected measurement of the active source, with gate at least one and variance at least 1e-4; nothing is fused without a source; ground effect compensation only shrinks negative barometer innovations; a switch to GPS (or to range in flight without terrain estimate) starts with zero innovation; the barometer offset tracks the filter height by at most 0.1 m/s without overshoot while another source is in use. Ground effect compensation, once requested, stays in force for exactly 10 s of barometer fusion after the request and then expires.',
  'every measurement, parameter and filter state',
  'real-valued quantities',
  ['EKF/control.cpp: controlHeightFusion', 'EKF/ekf_helper.cpp: startGpsHgtFusion, updateBaroHgtOffset'])
p('C94',
  'Height timeouts and resets',
  'The height is reset only after more than 5 s without height fusion or after continuous bad vertical acceleration; the source used afterwards is determined by a fixed table (GPS if accurate and no recent bad acceleration, barometer if GPS lost, range and vision while healthy, otherwise barometer); the reset makes the height equal to the newest measurement of that source with its variance, and the vertical velocity that of GPS if in use, otherwise zero with variance 10; without a usable source nothing changes.',
  'every state, time stamp and measurement',
  'all interleavings of sensor failures',
  ['EKF/control.cpp: controlHeightSensorTimeouts', 'EKF/ekf_helper.cpp: resetHeight'])
p('C95',
  'Barometer to GPS fallback does not last',
  'With the barometer as primary height source, the switch to GPS height after a barometer timeout is undone at the next barometer sample that arrives in time, because the fault marking is recomputed from the data rate at every step.',
  'every state in which the fallback happens and every following step with a barometer sample',
  'claim about executions',
  ['EKF/control.cpp: controlFusionModes, controlHeightFusion, controlHeightSensorTimeouts'])
p('C96',
  'GPS drift filters',
  'The filtered drift values never exceed ten times their limits; with a constant apparent drift v the filtered drift after n messages is v(1-(1-dt/10)^n) and the check fails exactly when this exceeds the limit; if every raw drift at rest is within the limit the check never fails; the reported error norm is at most one exactly if all accuracies meet their requirements.',
  'every message history',
  'unbounded histories of real values',
  ['EKF/gps_checks.cpp: gps_is_good'])
p('C97',
  'Loss of the GPS fix does not restart the health time',
  'Messages without a 3D fix are dropped before the checks, so the fix type check never records a failure and a fix outage of any length leaves the health timer running: the first good message after an outage is accepted at once.',
  'every message history',
  'claim about all histories',
  ['EKF/estimator_interface.cpp: setGpsData', 'EKF/gps_checks.cpp: gps_is_good, collect_gps'])
p('C98',
  'Setting the origin by command',
  'While aiding is active, setting the origin by command changes the local position so that it describes the same point on earth and the same altitude; it does not count as an initialised origin, so the first good GPS message afterwards keeps the horizontal reference but replaces the commanded altitude.',
  'all origins, positions and states',
  'real-valued quantities and histories',
  ['EKF/ekf_helper.cpp: setEkfGlobalOrigin', 'EKF/gps_checks.cpp: collect_gps'])
p('C99',
  'Distance to a line, vectors and three-dimensional distances',
  'get_distance_to_line fails within 0.1 m of the end point, otherwise reports past-end exactly when the bearing to the end is more than a quarter turn off the track bearing, and else a signed distance that never exceeds the distance to the end with a perpendicular bearing; the vector to a waypoint points along the bearing and is never longer than the distance; the 3-D distance helpers are Euclidean combinations.',
  'all coordinates',
  'real-valued geometry over all coordinates',
  ['geo/geo.cpp:get_distance_to_line', 'geo/geo.cpp:get_vector_to_next_waypoint', 'geo/geo.cpp:get_distance_to_point_global_wgs84', 'geo/geo.cpp:mavlink_wpm_distance_to_point_local'])
p('C100',
  'Distance to an arc',
  'get_distance_to_arc fails for radii below 0.1 m and otherwise reports a non-negative distance and a bearing in [-pi,pi): when the bearing from the position to the centre is in the tested sector, the absolute difference between radius and distance to the centre; otherwise the distance to the nearer of two points displaced by the radius from the position, independently of the centre. The documented contract, distance to the nearest point of the arc, is therefore violated (on the arc, opposite the arc, for western arcs and for negative sweeps).',
  'all positions, arcs and sweeps',
  'the sector logic must hold for every bearing and sweep',
  ['geo/geo.cpp:get_distance_to_arc'])
p('C101',
  'Flow measurements correct the terrain estimate by the exact Kalman update',
  'When range data has not been fused for 5 s, the main filter does not use flow and GPS is used, each flow axis within its gate updates the terrain height by the Kalman update with the derivative of the predicted flow rate; the time of the last flow fusion changes exactly then.',
  'all states, measurements and parameters',
  'real-valued equations over all inputs',
  ['EKF/terrain_estimator.cpp: fuseFlowForTerrain, runTerrainEstimator', 'EKF/control.cpp: controlFusionModes'])
p('C102',
  'Wind estimator fusions are Kalman updates with exact sensitivities',
  'A processed airspeed (sideslip) measurement publishes measured minus predicted value and HPH^T+R, where H is the true gradient of scale*|v-wind| (of lateral over forward air-relative body velocity); it is accepted exactly when innovation^2 <= gate^2*variance, and then the state and covariance are the Kalman posterior followed by the limits; a rejected one changes nothing; an accepted measurement keeps a positive semi-definite covariance within the limits positive semi-definite with no larger variances. (Zero relative airspeed divides zero by zero and drops the estimate.)',
  'all velocities, attitudes, states, covariances, gates and noise settings',
  'generated expressions; real-valued inputs',
  ['airdata/WindEstimator.cpp: fuse_airspeed, fuse_beta, check_if_meas_is_rejected'])
p('C103',
  'Wind estimator initialisation and prediction',
  'No estimate starts below 3 m/s ground speed; otherwise the initial wind places an air-relative velocity of the measured airspeed along the ground track with scale one. Prediction adds q*dt^2 to each variance and keeps the covariance positive semi-definite. (Findings: the initial covariance is not the propagated velocity covariance, as two rows of the Jacobian are exchanged; the process noise is also added to the north-east covariance so north minus east never becomes more uncertain; growth depends on the call rate.)',
  'all velocities, variances, airspeeds and time steps',
  'real-valued inputs; generated Jacobian',
  ['airdata/WindEstimator.cpp: initialise, update'])
p('C104',
  'Yaw estimator attitude models: alignment, propagation, correction and composite',
  'Tilt alignment yields a proper rotation that maps the measured specific force to straight up with zero yaw; at fusion start each model keeps its tilt and gets its own grid heading, and the grid is within 36 degrees of every heading; attitude rows keep unit length to fourth order in the rotation; tilt correction always turns the estimated down axis towards minus the specific force; when the models agree the published yaw is their yaw.',
  'all IMU samples, attitudes and headings',
  'continuous geometry over all attitudes',
  ['EKF/EKFGSF_yaw.cpp: ahrsAlignTilt, ahrsAlignYaw, ahrsPredictRotMat, ahrsPredict, update'])
p('C105',
  'Yaw alignment depends on the magnetometer type',
  'With magnetometer type INDOOR (or the reserved value 3) and no vision or antenna yaw configured, yaw is never aligned in any history from power-up, so GPS, flow and vision aiding never start; with AUTO, HEADING or 3D the yaw is aligned from the magnetometer as soon as the tilt has converged.',
  'every input history with increasing positive time stamps',
  'unbounded histories of all sensor inputs',
  ['EKF/control.cpp: controlFusionModes', 'EKF/ekf_helper.cpp: resetMagHeading', 'EKF/control.cpp: controlGpsFusion, controlOpticalFlowFusion, controlExternalVisionFusion'])
p('C106',
  'Antenna (GPS) yaw source handling',
  'Starting antenna yaw needs a finite heading, alignment of tilt, non-intermittent data and a usable antenna geometry, and stops vision yaw and both magnetometer modes; when not accepted for more than 5 s while in use it is declared faulty and never used again. (Finding: vision yaw can start while antenna yaw is in use, so both are fused.)',
  'every state and history',
  'unbounded histories',
  ['EKF/control.cpp: controlGpsYawFusion', 'EKF/ekf_helper.cpp: startGpsYawFusion, startEvYawFusion'])
p('C107',
  'GPS position timer when vision position is used as odometry',
  'Without vision position an accepted GPS position restarts the timer whose expiry triggers a GPS reset. (Refuted with vision position and GPS both configured: once a vision position was used, GPS positions restart a different timer, so even when every GPS and vision sample is accepted a GPS-timeout warning and a reset of position and velocity occur every twice the reset timeout.)',
  'every history with GPS aiding active throughout, any acceptance pattern',
  'unbounded histories',
  ['EKF/control.cpp: controlGpsFusion, controlExternalVisionFusion', 'EKF/vel_pos_fusion.cpp: fuseHorizontalPosition'])
p('C108',
  'GPS aiding start and stop',
  'GPS aiding starts exactly with a sample, configured, tilt aligned, origin set, no failed check for 5 s and yaw aligned, with a position reset (and a velocity reset unless flow is active) and an event; it stops only when deselected, when checks fail for 5 s while another source is active, when data is missing for 10 s, or 1 s with another source; never because of failing checks alone. (Finding: with type INDOOR and vision yaw each GPS sample drops the vision yaw and un-aligns yaw without starting GPS.)',
  'every state and input',
  'all flag/time combinations',
  ['EKF/control.cpp: controlGpsFusion', 'EKF/ekf_helper.cpp: startGpsFusion, stopGpsFusion'])
p('C109',
  'Vision aiding start, stop and first odometry sample',
  'Vision position starts exactly on a recent sample with tilt and yaw aligned when configured; all vision aiding stops together exactly when no data arrived for the reset timeout. (Finding: after any position reset the first vision sample used as odometry is fused with an unassigned, i.e. zero, observation variance and the innovation of the previous fusion.)',
  'every state and input',
  'all flag/time combinations',
  ['EKF/control.cpp: controlExternalVisionFusion', 'EKF/ekf_helper.cpp: startEvPosFusion, stopEvFusion'])
p('C110',
  'Synthetic position',
  'Synthetic position is used exactly when no horizontal source (and not the pair airspeed and sideslip) is active; it is fused only when more than 0.2 s have passed since the last one, preceded by a position and velocity reset after a gap above 0.4 s, with the noise of the situation, and the warning is raised except at the very first.',
  'every state and input',
  'all flag/time combinations',
  ['EKF/control.cpp: controlFakePosFusion'])
p('C111',
  'Optical flow aiding start, stop and use',
  'Flow aiding starts exactly with a usable sample, configured, not inhibited and yaw aligned; inhibition is exactly: ground handling not quiet for 5 s, or no valid terrain in flight, unless required, or tilt not aligned; it stops exactly when a usable sample finds it deselected or inhibited or 10 s without data; it is fused only behind the fusion horizon and with terrain estimated in the last 10 s.',
  'every state and input',
  'all flag/time combinations',
  ['EKF/control.cpp: controlOpticalFlowFusion'])
p('C112',
  'Wind, airspeed, sideslip, drag and auxiliary velocity control',
  'Wind estimation starts only in the air and not on synthetic position, with a wind reset, on airspeed, sideslip or drag; it stops exactly on synthetic position or after 10 s without airspeed and sideslip unless drag fusion is enabled; the airspeed flag is set exactly by an accepted sample and cleared after 10 s; sideslip, drag and auxiliary velocity are fused exactly under their stated conditions.',
  'every state and input',
  'all flag/time combinations',
  ['EKF/control.cpp: controlAirDataFusion, controlBetaFusion, controlDragFusion, controlAuxVelFusion'])
p('C113',
  'GPS drift report',
  'get_gps_drift_metrics marks its values as updated exactly when the last event before the call is a GPS message received on the ground; the values are the filtered horizontal and vertical drift and horizontal speed of the last message received at rest, non-negative, zero before any; away from rest the filters restart from zero.',
  'all histories of GPS messages and report calls',
  'freshness and provenance depend on the whole interleaving',
  ['EKF/ekf_helper.cpp:get_gps_drift_metrics', 'EKF/gps_checks.cpp:gps_is_good'])
p('C114',
  'Magnetometer mode decisions',
  'The field counts as disturbed exactly when its strength is off the reference by more than the gate, independent of sensor orientation; yaw and bias observability follow their hysteresis rules over every history of evaluations; the recorded time of suitable motion is that of the latest suitable evaluation; automatic mode uses three-axis fusion exactly within two seconds of it after in-flight alignment.',
  'all field vectors, all histories of accelerations, turn rates and aiding flags',
  'hysteresis over unbounded histories and real-valued thresholds',
  ['EKF/mag_control.cpp:checkMagFieldStrength', 'EKF/mag_control.cpp:check3DMagFusionSuitability', 'EKF/mag_control.cpp:selectMagAuto'])
p('C115',
  'What a GPS message leaves behind before and after the origin is set',
  'Before the origin exists, a message with at least a 2D fix and an accuracy better than 1000 m provides the magnetic declination, inclination, strength and earth rate for its position and requests a yaw reset if the declination was unknown and the magnetometer is in use, and touches nothing of the reference; an initialised origin always has a reference position in every history of messages and commanded origins; the position stored with each buffered GPS sample is its projection onto the origin when one exists and (0,0) otherwise.',
  'all messages, parameters, all histories of GPS messages and origin commands',
  'the pair (message before the origin, origin set while aiding) is needed to see that a stored sample keeps a wrong position',
  ['EKF/gps_checks.cpp:Ekf::collect_gps', 'EKF/estimator_interface.cpp:EstimatorInterface::setGpsData', 'EKF/ekf_helper.cpp:Ekf::setEkfGlobalOrigin'])
p('C116',
  'What a heading reset does',
  'Resetting the heading to any angle turns the attitude about the vertical so that its heading is that angle, keeps a unit quaternion, tilt and all other states, removes the correlations of the attitude with other states and adds the given variance (limited to 0.01 rad²) along the heading direction. A compass reset leaves earth field states whose horizontal direction is the declination in use and which reproduce the measurement; it is not repeated in the same frame; without a heading source nothing changes. A vision reset with agreeing tilt makes the attitude equal to the vision attitude, provided the sequence used to read the vision yaw is the one used to write it.',
  'all attitudes, angles, measurements, declination sources and modes',
  'an equality about rotations for every attitude and field vector; the two-sequence mismatch shows only for particular tilts',
  ['EKF/ekf_helper.cpp:Ekf::resetMagHeading', 'EKF/ekf_helper.cpp:Ekf::resetQuatStateYaw', 'EKF/ekf_helper.cpp:Ekf::getMagDeclination', 'EKF/ekf_helper.cpp:Ekf::startEvYawFusion', 'EKF/utils.cpp:updateYawInRotMat'])
p('C117',
  'Heading from the GPS course and from the emergency estimator',
  "A course is used only above 5 m/s with a speed accuracy better than 15 %; the first alignment in flight turns the attitude so that the filter's velocity points along the GPS velocity, later ones set the heading to the (wind-relative) GPS course; the uncertainty is the angle whose sine is speed error over speed; field states reproduce the measurement, body field is zeroed, a velocity/position reset is requested exactly if the heading was judged wrong; with agreeing courses the attitude stays. The emergency reset happens exactly for a converged estimate, sets the heading to it and declares a magnetometer in use faulty.",
  'all attitudes, velocities, accuracies, flags and covariances',
  'geometry over all attitudes and velocities',
  ['EKF/ekf_helper.cpp:Ekf::realignYawGPS', 'EKF/ekf_helper.cpp:Ekf::resetYawToEKFGSF'])
p('C118',
  'Vertical accelerometer fault declaration',
  "The vertical accelerometer fault is declared exactly while an update with bad evidence is less than 10 s old; bad evidence is a falling inertial solution according to independent height and vertical velocity measurements, or to any current height measurement while clipping counts as frequent. Clipping counts as frequent whenever clipped samples outnumber clean ones in some run of at most the last 100 samples, only if they do in some run of latest samples, and never after 100 clean samples. The 'continuously bad' condition that triggers a height reset means bad evidence in every update of the configured delay. Findings: one clipped sample suffices, clipping older than one second counts, a NaN innovation ratio counts as healthy.",
  'all histories of filter updates with arbitrary innovation ratios (NaN included), flags, clipping patterns and non-decreasing time stamps; all parameter values',
  'the counter and the persistence depend on the whole history of updates',
  ['EKF/control.cpp: Ekf::checkVerticalAccelerationHealth', 'EKF/common.h: BADACC_PROBATION'])
p('C119',
  'Range finder as height aid switches with hysteresis',
  'The range finder is suitable as height aid exactly when at some update all start conditions held (70 % of the height and speed limits, innovation below a tenth of the gate) and at every later update all stay conditions held (the full limits); while conditions stay between the two sets the answer never changes; suitable implies in the air, range finder healthy, terrain valid and height below the maximum at that update. A zero innovation variance never qualifies, a negative one always passes the innovation test.',
  'all histories of filter updates, all heights, speeds, innovations and parameters (non-zero gate, non-negative maximum height)',
  'hysteresis depends on the whole history',
  ['EKF/control.cpp: Ekf::checkRangeAidSuitability'])
p('C120',
  'Barometer correction for dynamic pressure',
  'The altitude is corrected by the sum over the body axes of coefficient times limited squared air speed over 2g, the coefficient chosen by the sign of the air-relative velocity; the air density cancels; the correction is bounded by the maximum correction air speed for all states; it is continuous in the air speed, does not change with heading, and depends only on the velocity relative to the air; with zero coefficients nothing is changed.',
  'all attitudes, velocities, winds, coefficients and non-zero densities',
  'a continuum of states; continuity and invariance are universal statements',
  ['EKF/ekf_helper.cpp: Ekf::compensateBaroForDynamicPressure'])
p('C121',
  'Admission of optical flow samples',
  'A flow sample is used exactly if it passes quality, magnitude, tilt and interval tests, with the body rotation over the same interval (sensor gyro, or the bias-corrected filter rotation accumulated since the previous sample) subtracted; otherwise on the ground it is replaced by zero motion, in the air it is dropped; every kept sample has an interval between 1 ms and 0.8 s. Findings: a NaN flow passes; without configured flow limits all moving samples are dropped.',
  'all samples, accumulated intervals and histories of filter updates',
  'interval arithmetic over all histories and all float inputs including NaN',
  ['EKF/control.cpp: Ekf::controlOpticalFlowFusion', 'EKF/optflow_fusion.cpp: Ekf::calcOptFlowBodyRateComp'])
p('C122',
  'Which velocity a reset gives',
  "A velocity reset takes the first available of: GPS velocity (GPS in use and no failed GPS check within the health time), the velocity that explains the compensated optical flow at the current height, the vision velocity, zero. Every component for which that source has a value is set to it with the source's variance and no correlation; components without value keep their value; no other state or covariance entry changes; all outputs move with the state; a valid covariance stays valid. Findings: with a recently failed GPS check and no other source the vehicle is declared stopped in flight while its position goes to that GPS fix; the flow reset divides by the interval of the last sample, accepted or not.",
  'all states, covariances, measurements, modes',
  'the property ranges over every combination of sources and every covariance',
  ['EKF/ekf_helper.cpp:49-120 resetVelocity, resetVelocityToGps, resetHorizontalVelocityToOpticalFlow, resetVelocityToVision, resetHorizontalVelocityToZero'])
p('C123',
  'Which horizontal position a reset gives',
  'A horizontal position reset takes the first available of: GPS position with its accuracy, vision position (rotated if required) with its variances, the origin with zero variance when flow aiding starts on ground, the last known position (zero variance with flow, the no-aiding noise without). Both components are set without correlation, no other state or covariance entry changes, all outputs move with the state, odometry fusion is told that it has no previous sample, and a valid covariance stays valid.',
  'all states, covariances, measurements, modes',
  'the property ranges over every combination of sources and every covariance',
  ['EKF/ekf_helper.cpp:162-217 resetHorizontalPosition, resetHorizontalPositionToGps, resetHorizontalPositionToVision'])
p('C124',
  'What is fused from an external vision sample',
  'The alignment between vision and navigation frame is the rotation that turns the vision attitude into the attitude estimate. The velocity observation is the velocity of the IMU when the sample is the velocity of the camera (a body-fixed point) in body axes or in the aligned vision frame; the variances are those along the navigation axes (non-negative for a valid covariance, sum kept by rotation) limited below by (5 cm/s)². Position innovations are the error of the position state (in odometry mode of its change between samples, independent of the vision origin), with variances limited below by (1 cm)² / (0.5 m)². Findings: the lever arm is subtracted before the frame rotation and leaves (E-1)Ro; with vision yaw in use the alignment is frozen although the heading was just reset; the innovation is formed before a timeout reset and fused after it.',
  'all attitudes, frames, alignments, lever arms, rates, samples and covariances',
  'equalities over all motions of a rigid body; the residual needs a tilted lever arm and a turned frame',
  ['EKF/control.cpp:188-330 controlExternalVisionFusion', 'EKF/ekf_helper.cpp:1296-1349 getVisionVelocityInEkfFrame, getVisionVelocityVarianceInEkfFrame, calcExtVisRotMat'])
p('C125',
  'What is fused from a GPS sample',
  'If the sample is the position, height and velocity of the antenna (a body-fixed point of a moving rigid body), the innovations are the errors of the velocity and position states at the IMU minus the measurement errors, up to the effect of the gyro bias on the lever arm (at most bias times lever arm). Position noise is the reported accuracy, at least max(parameter, 1 cm), limited above by the no-aiding noise only when GPS is the only source; velocity noise at least the parameter and 1.5 times larger vertically. Each of the three fusions is accepted exactly within max(gate, 1) standard deviations. Finding: resets to GPS use the uncorrected sample, which then disagrees with the state by the whole lever arm.',
  'all motions, lever arms, accuracies, parameters, filter states',
  'ranges over all rigid body motions',
  ['EKF/control.cpp:674-720 controlGpsFusion'])
p('C126',
  'When a navigation failure is blamed on the heading',
  'In the situations where the test is made, the heading is blamed exactly if observed and estimated horizontal velocity both exceed 1 m/s and four combined standard deviations and the angle between them exceeds 25 degrees; in particular, for an estimate that is the observation turned by a heading error psi, exactly if |psi| exceeds 25 degrees.',
  'all velocities, variances and heading errors',
  'a trigonometric equivalence over all vectors',
  ['EKF/control.cpp:611-634 controlGpsFusion'])
p('C127',
  'Synthetic position and auxiliary velocity measurements',
  'When synthetic position is re-commenced, the position estimate and all position outputs stay where they are, the horizontal velocity becomes zero (variance 25) and the position variance the squared no-aiding noise. A synthetic measurement has the noise of the flight phase and is used unless the position is more than 100 standard deviations off, when nothing changes; it never pushes past the last known position. Auxiliary velocity is compared as given, in its gate, horizontally only; a rejected sample changes nothing in the filter. Finding: the variance remembered with an auxiliary observation is the innovation variance of the sample before.',
  'all states, covariances, samples, gates',
  'numeric statements over all filter states',
  ['EKF/control.cpp:1282-1357 controlFakePosFusion, controlAuxVelFusion'])
p('C128',
  'Motion on ground that blocks optical flow',
  'Motion counts as excessive exactly if the filtered acceleration is outside 0.5 g to 1.5 g, the rotation rate exceeds the sensor maximum or the tilt exceeds 30 degrees. In every history of frames, on ground flow is blocked for motion exactly if an excessive frame on ground since the last frame in the air is less than 5 s old, or the clock is below 5 s; a moment in the air clears the memory.',
  'all histories of filter frames at non-decreasing times',
  'a statement about unbounded histories',
  ['EKF/control.cpp:343-352, 412-414, 481-506 controlOpticalFlowFusion, updateOnGroundMotionForOpticalFlowChecks'])
p('C129',
  'Yaw estimator inputs from the main filter',
  'Each filter update makes exactly one update of the backup yaw estimator with the delayed IMU sample and an airspeed: the configured default for a fixed wing whose airspeed is more than 1 s old, the last airspeed sample otherwise. A GPS velocity is handed over after it (so it is used by the next update) exactly when a GPS sample is ready, its stated accuracy is positive and both horizontal components are finite. (Findings: the vertical position accuracy is used as the speed accuracy; a vehicle that is not fixed wing keeps using an arbitrarily old airspeed.)',
  'all inputs, flags and time stamps',
  'quantifies over all inputs',
  ['EKF/ekf_helper.cpp:runYawEKFGSF'])
p('C130',
  'Published position, velocity and yaw rate refer to the body origin',
  "For every rigid body motion, a filter that tracks the IMU exactly publishes the position of the body origin, and its velocity up to the gyro bias crossed with the lever arm; the published velocity and position use the newest attitude; the yaw rate estimate is a first order low pass of the rotation about the earth's vertical axis. (Findings: the gyro bias is not removed from the rate of the lever arm term; the yaw rate filter divides by the sample interval without a guard.)",
  'all rigid body motions, lever arms, biases and samples',
  'continuous quantities and derivatives',
  ['EKF/estimator_interface.h:getVelocity', 'EKF/estimator_interface.h:getPosition', 'EKF/ekf.cpp:calculateOutputStates'])
p('C131',
  'Rotation vector variances',
  'The attitude variances used for the initial alignment and the vision reset decisions are, away from the identity attitude, the attitude covariance projected on the gradient of the rotation vector of the attitude, for either sign of the quaternion; within 1e-9 of the identity they are four times the vector part variances. They are never negative for a valid covariance, do not depend on the sign of the quaternion, and their sensitivities are bounded (2 to pi for the vector part, twice the component for the scalar part).',
  'all attitudes and covariances',
  'real analysis over all attitudes',
  ['EKF/ekf_helper.cpp:calcRotVecVariances'])
p('C132',
  'Initialisation needs data, succeeds at rest, is safe',
  'From power-on, in every order of IMU, reset, update and other calls: the filter is initialised only after as many barometer samples (and, in compass modes, magnetometer samples) as the observation buffer holds have been delivered. A vehicle at rest from which that many samples were delivered is initialised. No call sequence performs an undefined operation.',
  'all call histories',
  'histories of unbounded length',
  ['EKF/ekf.cpp:initialiseFilter', 'EKF/ekf.cpp:update', 'EKF/estimator_interface.cpp:setIMUData'])
p('C133',
  'What update() returns',
  'update() returns true exactly when the filter is initialised (possibly by this call) and the last IMU sample handed over completed a down-sampling interval and no reset happened since. Before initialisation it returns false and leaves state, covariance and terrain state alone. It does not consume the sample: a second call without new IMU data predicts and fuses again on the same sample.',
  'all call histories',
  'histories of unbounded length',
  ['EKF/ekf.cpp:update', 'EKF/estimator_interface.cpp:setIMUData'])
p('C134',
  'Initial state and covariance',
  "The initialising call in a compass mode yields a unit attitude in which the averaged specific force points straight up, an earth field equal to the averaged body field rotated with the attitude and pointing to the declination in use, untouched other states, yaw aligned, barometer as the only height source, output history equal to the state. The covariance is valid, diagonal outside the attitude block with the documented initial deviations; the height variance is always the barometer's, whatever height sensor is configured.",
  'all sensor data, configurations and prior states',
  'real-valued inputs',
  ['EKF/ekf.cpp:initialiseFilter', 'EKF/covariance.cpp:initialiseCovariance', 'EKF/ekf_helper.cpp:resetMagHeading'])
p('C135',
  'reset()',
  'reset() leaves the filter uninitialised with zero states, level attitude, no aiding and no height source, and the next update() cannot report a run before new IMU data. Counters, IMU averages and barometer offset survive: the filter re-initialises at once without any new barometer or magnetometer data; the time of the last heading reset survives, so that a reset right after a heading reset can report aligned yaw with zero yaw and zero earth field.',
  'all states',
  'states of arbitrary history',
  ['EKF/ekf.cpp:reset', 'EKF/ekf.cpp:initialiseFilter'])
p('C136',
  'Initial averages',
  'The height origin and the magnetic field used at initialisation are running averages, weight 0.1 for the newest sample, of all barometer and magnetometer samples delivered since power-on, and so lie in the range of those samples.',
  'all call histories without reset before initialisation',
  'histories of unbounded length',
  ['EKF/ekf.cpp:initialiseFilter'])
p('C137',
  'Covariance symmetric with non-negative variances in every history',
  'From power-on, after any sequence of initialisations, predictions, sensor fusions, resets and mode changes, in any order and with any data and parameters, the state covariance is symmetric and no variance is negative (so the reported accuracies are square roots of non-negative numbers), provided the variances given with vision data and the wind uncertainty parameter are not negative; right after a prediction all variances are within their limits and the rows of unused magnetic field and wind states are zero. A negative variance in vision data, which nothing rejects, does enter the covariance.',
  'all finite histories of the 33 operations that write the state or covariance, all arguments',
  'quantifies over all histories, orders and data',
  ['EKF/covariance.cpp', 'EKF/ekf_helper.cpp', 'EKF/ekf.cpp', 'EKF/vel_pos_fusion.cpp', 'EKF/mag_fusion.cpp', 'EKF/airspeed_fusion.cpp', 'EKF/sideslip_fusion.cpp', 'EKF/drag_fusion.cpp', 'EKF/optflow_fusion.cpp', 'EKF/gps_yaw_fusion.cpp'])
p('C138',
  'Attitude is a unit quaternion and states are limited in every history',
  'From power-on, after any sequence of operations the attitude is a unit quaternion, unless at some earlier point a correction cancelled the quaternion exactly (0/0 in the code); after any history ending with a prediction every state is within its limit (velocity 1000 m/s, position 1000 km, gyro bias 20 deg/s and accelerometer bias the configured limit at the filter period of at most 20 ms, earth field 1 G, body field 0.5 G, wind 100 m/s) and the rotation matrix belongs to the attitude.',
  'all finite histories of the 33 operations that write the state or covariance, all arguments',
  'quantifies over all histories, orders and data',
  ['EKF/ekf.cpp:predictState', 'EKF/ekf_helper.cpp:constrainStates', 'EKF/ekf_helper.cpp:fuse', 'EKF/ekf_helper.cpp:resetQuatStateYaw'])
p('C139',
  'Perfect measurements keep a perfect estimate',
  'Fusing a measurement that is exactly what the current state predicts (velocity, position, height, magnetometer, declination, heading, GPS yaw, airspeed, sideslip, drag, optical flow) leaves the whole state vector unchanged, whatever the covariance, noise parameters and gates. Hence over any history of predictions and such fusions the state is the one of the strap-down prediction alone; and a filter whose state is the true state of a vehicle with constant attitude and constant acceleration, with correctly estimated biases, field and wind, stays exactly on the true trajectory over any log of perfect data. Conditions: unit quaternion, motion within the state limits, earth field within the declination limits, and airspeed or sideslip fusion reporting no fault (which resets the wind).',
  'all filter states, covariances, parameters, orders and numbers of fusions, sample times, constant accelerations',
  'An inconsistent sign, rotation or offset between the predicted measurement and the model of the sensor shows only as a slow bias of a long flight; a test cannot cover every order of fusions and every covariance',
  ['EKF/ekf.cpp:predictState', 'EKF/vel_pos_fusion.cpp', 'EKF/mag_fusion.cpp', 'EKF/gps_yaw_fusion.cpp', 'EKF/airspeed_fusion.cpp', 'EKF/sideslip_fusion.cpp', 'EKF/drag_fusion.cpp', 'EKF/optflow_fusion.cpp', 'EKF/ekf_helper.cpp:fuse'])
p('C140',
  'The covariance stays positive semi-definite through a whole flight of regular steps',
  'Take any history from power-on of predictions, measurement updates, state and covariance resets, in any order with any data, in which every step is regular: positive measurement noise, each update corrects all states in use (magnetometer after its first 5 s, airspeed and sideslip during wind dead reckoning, heading without 3-axis magnetometer fusion), no drag and no optical flow update, wind resets with ordered time stamps; while no variance reaches its upper limit, no accelerometer axis is inhibited and the attitude quaternion is never cancelled exactly. Then the covariance reported at the end is symmetric and no combination of states has a negative variance. The restriction to updates that correct all states is needed: wind-only airspeed fusion turns a valid covariance into one in which north velocity plus twice north wind has variance -0.6. So is the exclusion of optical flow: its second axis uses gains computed before the first axis was fused, and an accepted, perfect measurement with correlated north and east velocities leaves a covariance in which their sum has a variance below -35.',
  'all histories of any length with any arguments; all state combinations',
  'a test checks a finite set of flights and cannot examine every direction of a 24-dimensional quadratic form; indefiniteness develops slowly',
  ['EKF/covariance.cpp:predictCovariance', 'EKF/covariance.cpp:fixCovarianceErrors', 'EKF/ekf.h:measurementUpdate', 'EKF/airspeed_fusion.cpp:fuseAirspeed', 'EKF/vel_pos_fusion.cpp', 'EKF/mag_fusion.cpp', 'EKF/ekf_helper.cpp'])
p('C141',
  'Variances keep their limits and the covariance its symmetry in floating point',
  'In float arithmetic with rounding, infinities and NaN, and for arbitrary (infinite, NaN, badly rounded) gains and products: after every applied measurement update and every covariance prediction each reported variance is NaN or within its documented limits (never negative), and mirrored entries of the covariance are equal; an update that is not applied leaves each variance as it was or zero. No assumption on the rounding beyond monotonicity and 0 -> 0. Exceptions: correlations among the three accelerometer biases when all are inhibited; in the prediction, the stored variance of an inhibited accelerometer bias axis must not be negative.',
  'all covariances, gains, products, configurations; all monotone roundings',
  'A test sees the roundings of its own data; catastrophic cancellation, overflow and NaN occur for other data',
  ['EKF/covariance.cpp:fixCovarianceErrors', 'EKF/covariance.cpp:predictCovariance', 'EKF/ekf.h:measurementUpdate', 'EKF/covariance.cpp:checkAndFixCovarianceUpdate'])
p('C142',
  'Rounding errors of the attitude do not accumulate',
  'In IEEE single precision, however many predictions, corrections and yaw resets ran in whatever order, after every prediction and every correction the squared length of the attitude quaternion is within a millionth of one. Conditions: rotation per sample given as a quaternion of squared length within 10 % of one, likewise a replacement at a yaw reset, corrections shorter than 1/4. Holds whether the norm divides or its reciprocal multiplies, and however ties are rounded.',
  'all histories of any length with any rotations and corrections; all roundings with the error of binary32',
  'The drift of the norm over hours of flight depends on the data; a test cannot run every history',
  ['EKF/ekf.cpp:predictState', 'EKF/ekf_helper.cpp:fuse', 'EKF/ekf_helper.cpp:constrainStates', 'EKF/ekf_helper.cpp:resetQuatStateYaw'])
p('C143',
  'NaN in the covariance is not healed; states never leave their limits in floating point',
  'In float arithmetic with infinities and NaN: after every prediction each state is NaN or within its documented limit, whatever was computed (an infinite state is impossible). But a variance that has become NaN stays NaN through every later measurement update of a state in use, applied or refused: the health check and the limits, being comparisons, do not detect it, and only a reset of that block ends it.',
  'all states, covariances, gains; any number of updates; all monotone roundings',
  'NaN needs an overflow or a NaN input at the right moment; whether any sequence of updates recovers ranges over all sequences',
  ['EKF/ekf_helper.cpp:constrainStates', 'EKF/covariance.cpp:fixCovarianceErrors', 'EKF/covariance.cpp:checkAndFixCovarianceUpdate', 'EKF/ekf.h:measurementUpdate'])
p('C144',
  'Running averages and model weights do not degrade with flight time in single precision',
  'In IEEE single precision, over any history: the average update interval, by which reported biases are divided, stays between 4.9 and 20.1 ms whatever the intervals of the samples; and the five model weights of the yaw estimator are never negative and sum to one within a millionth after every update, for all model densities between 0 and 1000.',
  'all histories of any length, all intervals and densities; all roundings with the error of binary32',
  'Drift through rounding appears after hours and depends on the data',
  ['EKF/ekf.cpp:predictState', 'EKF/EKFGSF_yaw.cpp:update', 'EKF/EKFGSF_yaw.cpp:initialiseEKFGSF'])
p('C145',
  'The reported covariance is the covariance of the error',
  'If before a fusion the second moments of the estimation errors are the entries of the reported covariance, the measurement is the truth plus uncorrelated noise of the stated variance, the gate accepts and no limit acts, then after fusing a vertical velocity, a height, a horizontal velocity or a horizontal position the reported covariance is again that of the errors (non-quaternion states). For magnetometer fusion this fails: the errors have the reported second moments plus a positive term whenever two axes are correlated, because the innovation of the second axis is not recomputed; the reported variance can be below 0.01 with a mean square error above 1/3. It also fails for a whole GPS sample, because the position innovation is computed before the velocity is fused: the north position error has the reported variance plus a positive term whenever north velocity and position errors are correlated, with the same example numbers. When only some states are corrected the covariances between corrected and uncorrected states are wrong by half of the correction.',
  'every probability space of estimates, truths and noises, every covariance, measurement variance and gate',
  'a statement about the distribution of errors over all truths and noises; a run shows a single outcome',
  ['EKF/vel_pos_fusion.cpp: fuseHorizontalVelocity, fuseVerticalVelocity, fuseHorizontalPosition, fuseVerticalPosition, fuseVelPosHeight', 'EKF/control.cpp: controlGpsFusion', 'EKF/mag_fusion.cpp: fuseMag', 'EKF/ekf.h: measurementUpdate', 'EKF/covariance.cpp: fixCovarianceErrors'])
p('C146',
  'No accepted sample is lost: each reaches the filter at the first step that reaches its time',
  'For every buffer length and every history in which accepted samples come at least g apart, ahead of the fusion horizon by no more than (number of slots) * g, and the horizon advances by at most g and 100 ms per step, every filter step receives exactly the samples that became due since the previous step, in order, each once, and the buffer keeps exactly the samples not yet due. The rate limit computed by the interface makes the window condition true when the IMU window is constant; while the IMU buffer is filling it does not, and accepted samples are overwritten before they are due. A step spanning two samples loses the older; a sample older than 100 ms is never delivered.',
  'all capacities 1..255, all sample histories and query times in the stated pace, all delays and rounding errors of the stamp shift',
  'whether a sample is lost depends on the interleaving of arrivals and filter steps over the whole history',
  ['EKF/RingBuffer.h:pop_first_older_than', 'EKF/estimator_interface.cpp:setIMUData', 'EKF/estimator_interface.cpp:setAirspeedData', 'EKF/control.cpp:controlFusionModes'])
p('C147',
  'The published output converges to the delayed EKF estimate',
  'Over any sequence of filter updates with a constant filter interval, from a full history, the velocity and position tracking errors of the output predictor obey a recursion without delay and decay geometrically (factor 1 - g/10 per step, g = interval / time constant limited to [interval, 10 s]) to 2.6/g times the deviation of the mismatch between EKF and recorded increments from a constant; a constant mismatch leaves no error. The alternative vertical output converges as well when the position gain times the interval does not exceed the velocity gain. Corrections never alter recorded increments.',
  'every history length of at least two, every time constant, every sequence of IMU samples and EKF states, any number of IMU samples per filter update',
  'convergence and its rate are statements about infinite histories and all gains',
  ['EKF/ekf.cpp:calculateOutputStates', 'EKF/ekf.cpp:applyCorrectionToOutputBuffer', 'EKF/ekf.cpp:applyCorrectionToVerticalOutputBuffer'])
p('C148',
  'Published heading converges to the heading of the delayed filter',
  'While the vehicle turns about the vertical only, the attitude published by the output predictor is a pure heading, and its difference to the heading the EKF reaches when its fusion horizon gets to that instant obeys a delayed loop: if the per-cycle gain is at most 1/(2(n-1)) for a history of n entries (exactly what the 0.5 dt / delay gain gives with steady timing), the error decays geometrically to a multiple of the mismatch between the rotations integrated by filter and output, from any initial error whose bound stays within half a turn; the reported attitude tracking error equals 2|sin(error/2)|.',
  'all history lengths from 2, all infinite sequences of filter cycles with any number of IMU samples each, all initial headings, all rotation sequences about the vertical',
  'the attitude loop contains the whole buffer as a delay; stability of a delayed loop is a statement about infinite histories and all buffer lengths',
  ['EKF/ekf.cpp:calculateOutputStates', 'EKF/ekf.cpp:update'])
p('C149',
  'A rejected GPS position does not lock the filter out, unless a yaw reset is waited for',
  'When GPS data arrives while GPS aiding is in use and more than twice the reset timeout has passed since the last horizontal position was taken, the horizontal position is reset to GPS in that step, provided that no emergency yaw reset is requested or indicated, or the yaw estimator can deliver one; the time of the last position changes only in steps that accept a position or reset to GPS. Finding: without the proviso the claim is false; with a velocity direction mismatch that the yaw estimator cannot resolve, the filter keeps reporting GPS aiding, accepts nothing and resets nothing, for any number of samples.',
  'all histories of aiding control inputs (parameters may change), all states; the finding: histories of any length from a state reachable from power-on',
  'the lock-out needs a long rejection while the yaw estimator is not converged; the bound must hold for every order of sensor failures before it',
  ['EKF/control.cpp:controlGpsFusion', 'EKF/ekf_helper.cpp:resetYawToEKFGSF', 'EKF/ekf_helper.cpp:resetHorizontalPosition', 'EKF/vel_pos_fusion.cpp:fuseHorizontalPosition'])
p('C150',
  'The yaw estimator settles on the model that explains the GPS velocity',
  'If the yaw estimator is running and, during further calls, every fused velocity is explained by one model with likelihood at least d and by every other model at most rho times as well, then after n fusions the weight of every other model is at most max(rho^n Q, 1e-5 (1 + 4 Q) / d) times the weight of that model, where Q >= 1 bounds the initial relative weights; a yaw stays available; with q the above bound below 1/4 the published yaw is within 2 pi q of the heading of that model and the published variance exceeds that of the model by at most (2 pi q)^2 plus q times the spread of the others. In every history the published yaw and variance belong to the current weights and models.',
  'all histories of update and setVelocity calls before and during the selection, all models, all ratios, any number of fusions',
  'convergence of a Gaussian sum filter with weight limits is a statement about unbounded sequences of fusions',
  ['EKF/EKFGSF_yaw.cpp:update', 'EKF/EKFGSF_yaw.cpp:gaussianDensity', 'EKF/EKFGSF_yaw.cpp:getYawData'])
p('C151',
  'Over flat ground the terrain estimate converges to the ground, whatever it starts from',
  'In flight over flat ground with a healthy range finder whose readings are within a known error of the true distance, the distance of the terrain estimate from that error band never grows, and shrinks by a fixed factor R/(R+q) < 1 with every range measurement that passes its check or follows ten seconds of rejection; and the estimate cannot be locked out: a stretch ending more than ten seconds after the last accepted measurement contains such a step.',
  'every initial estimate and variance, every flight, every sequence of range readings, vehicle positions and speeds consistent with flat ground, every parameter setting',
  'convergence from every initial error over histories of any length, with the clearance clamp and the rejection logic interleaved',
  ['EKF/terrain_estimator.cpp: Ekf::runTerrainEstimator, fuseHagl, predictHagl', 'EKF/terrain_estimator.cpp: Ekf::isTerrainEstimateValid'])
p('C152',
  'What an accepted measurement does to the estimate and to its reported variance',
  "An accepted height or vertical velocity measurement z of variance R replaces the estimate by the average of the old value and z weighted by inverse variances, and the reported variance by that of the average (kept within limits), hence at most R; any number of accepted height measurements gives the precision-weighted mean and the sum of the precisions. For a horizontal measurement the reported north variance afterwards is at most the measurement's, but the east one is only bounded by a quarter of its innovation variance: with correlated north and east errors a 1 m fix can leave a reported east variance above 25 square metres, because the east innovation variance is not recomputed after the north update.",
  'every state and valid covariance, every measurement value, variance and gate that lets it pass, every number of repeated measurements',
  'an algebraic law over all covariances and unbounded sequences; the east-axis exception shows only for correlated errors',
  ['EKF/vel_pos_fusion.cpp: Ekf::fuseHorizontalVelocity, fuseVerticalVelocity, fuseHorizontalPosition, fuseVerticalPosition, fuseVelPosHeight'])
p('C153',
  'Rejected vision positions and optical flow lead to resets; losing the terrain estimate freezes the position',
  'With vision position in use and GPS neither configured nor in use, a vision sample that arrives more than the reset timeout after the last taken position resets the horizontal position to vision, in every history. In flight on optical flow alone, a flow sample that is not accepted (or not fused because the terrain estimate is older than ten seconds) more than the reset timeout after the last accepted one resets the velocity to the flow and the position to the last known one. Finding: the reset does not restart that timer, so with the terrain estimate lost every good flow sample, for any length of time, puts the vehicle back to the last known position with zero reported variance.',
  'every history of filter steps and sensor arrivals',
  'no finite run shows that the resets never stop (or never fail to come) for every interleaving of sources',
  ['EKF/control.cpp: Ekf::controlExternalVisionFusion, controlOpticalFlowFusion', 'EKF/ekf_helper.cpp: Ekf::resetHorizontalPosition, resetVelocity'])
p('C154',
  'Covariance prediction moves errors as the state prediction does',
  'When the estimate is predicted over one filter step, the error of the estimate (the difference to the true state driven by the same IMU data) changes as the transition matrix of the covariance prediction says: exactly for the velocity when attitude and gyro biases are right, however large the errors are; for the position up to two stated terms (interval different from 10 ms, displacement by the velocity increment of the same step); for the attitude up to a relative error of 0.15 times the squared rotation of the step; for a gyro bias error of a resting vehicle up to second order. The accelerometer-bias contribution to the position in the same step is really missing.',
  'all pairs of states, all IMU samples with the states inside their limits (rotation at most 2 rad for the attitude part)',
  'A test compares a run with one trajectory; that the covariance describes the growth of every error is a statement about all pairs of states.',
  ['EKF/ekf.cpp:257-309 predictState', 'EKF/covariance.cpp:101-857 predictCovariance'])
p('C155',
  'Bounded influence of a single measurement',
  'Whatever value a sensor delivers, fusing it moves no estimated state by more than the innovation gate times the standard deviation the filter itself reported for that state just before (times the square root of two, or two, for the two components of a horizontal or flow measurement; five deviations for drag; half a radian over sigma for the declination). This holds when the measurement is out of the gate, when a heading is clamped on ground, and when vertical aiding is accepted despite bad accelerometer data. It is false for the second and third magnetometer axis, which can move a state by ten deviations through a three-deviation gate.',
  'all measurement values and variances, all gates, all filter states with a valid covariance, all sensor types',
  'the bound is a Cauchy-Schwarz argument over all 24-state covariances; a test exercises one covariance and innovation at a time',
  ['EKF/vel_pos_fusion.cpp:fuseHorizontalVelocity', 'EKF/vel_pos_fusion.cpp:fuseVerticalPosition', 'EKF/airspeed_fusion.cpp:fuseAirspeed', 'EKF/sideslip_fusion.cpp:fuseSideslip', 'EKF/mag_fusion.cpp:fuseMag', 'EKF/mag_fusion.cpp:fuseHeading', 'EKF/gps_yaw_fusion.cpp:fuseGpsYaw', 'EKF/drag_fusion.cpp:fuseDrag', 'EKF/optflow_fusion.cpp:fuseOptFlow', 'EKF/terrain_estimator.cpp:fuseHagl', 'EKF/terrain_estimator.cpp:fuseFlowForTerrain'])
p('C156',
  'The sensor inputs do not interfere and are safe together',
  "Take any history that interleaves, in any order, IMU updates, messages of the eight sensor inputs (magnetometer, barometer, GPS, airspeed, range, optical flow, vision, auxiliary velocity), the drag data derived from the IMU, and the filter's queries. (1) What each stream has buffered and every answer it gives are exactly those obtained when the messages and queries of all the other streams are left out. (2) With 2..255 observation slots, at most 255 IMU slots, delays below 16.7 s, stamps later than the delay and below 2^62 us, and fewer than 255 magnetometer (barometer) samples per rate-limit interval, no such history leads to undefined behaviour (out-of-range conversion, division by zero, bad index) or disables an input. (3) Before the first IMU update all messages are discarded without trace.",
  'all histories of messages, IMU updates and queries of all nine streams, all contents, all configurations in the stated range',
  'needs every interleaving and every history length',
  ['EKF/estimator_interface.cpp: setIMUData', 'EKF/estimator_interface.cpp: setMagData', 'EKF/estimator_interface.cpp: setGpsData', 'EKF/estimator_interface.cpp: setBaroData', 'EKF/estimator_interface.cpp: setAirspeedData', 'EKF/estimator_interface.cpp: setRangeData', 'EKF/estimator_interface.cpp: setOpticalFlowData', 'EKF/estimator_interface.cpp: setExtVisionData', 'EKF/estimator_interface.cpp: setAuxVelData', 'EKF/estimator_interface.cpp: setDragData', 'EKF/RingBuffer.h: RingBuffer'])
p('C157',
  'When the heading is reset while flying on the magnetometer',
  'With a usable magnetometer and an aligned yaw, each magnetometer control update resets the heading exactly when new data are there, no vision or GPS-antenna heading is in use, heading fusion was not inhibited before the update, and a reset is requested: left over from earlier, because the last other heading source has just stopped, or because the vehicle has climbed 1.5 m above the terrain without in-flight alignment. The source is the magnetometer if the field is undisturbed (ground; vehicles that are not fixed wings), the GPS course for fixed wings in flight when it is usable and disagrees, else the magnetometer. The request ends, and in flight the alignment is noted, exactly when this succeeded; velocity and position are reset after a course based reset. An update remembers whether another heading source was in use, so the loss of the last one leads to a compass reset at the next magnetometer sample.',
  'all states of the aiding logic, all inputs, all parameter changes',
  'the decision depends on the combination of a dozen flags left by earlier updates',
  ['EKF/mag_control.cpp: controlMagFusion', 'EKF/mag_control.cpp: runInAirYawReset', 'EKF/mag_control.cpp: runOnGroundYawReset', 'EKF/mag_control.cpp: runVelPosReset', 'EKF/mag_control.cpp: otherHeadingSourcesHaveStopped', 'EKF/ekf_helper.cpp: realignYawGPS', 'EKF/ekf_helper.cpp: resetMagHeading'])
p('C158',
  'Origin of the local frame is irrelevant',
  'The estimate does not depend on where the origin of the local frame is. Describe any history of filter steps (prediction, every kind of measurement fusion, resets of velocity, position, height, heading, wind, biases, covariance) in a frame displaced by an arbitrary vector, i.e. displace the GPS and vision positions, the terrain height and the height references by it: then after every step attitude, velocity, biases, magnetic field, wind, covariance and all stored values are exactly the same, and the estimated position is displaced by exactly that vector. Excepted are only the steps that refer to the origin itself (re-initialisation, and the position reset on the ground with optical flow alone, which sets the position to zero) and positions beyond the 1000 km limit of the estimator.',
  'all finite histories of steps, all starting states, all displacement vectors, all measurements and parameters',
  'a relation between two complete runs over arbitrary histories and displacements; a position read by mistake in one of the generated Jacobians shows only far from the origin',
  ['EKF/ekf.cpp:Ekf::predictState', 'EKF/ekf_helper.cpp:Ekf::resetHorizontalPosition', 'EKF/ekf_helper.cpp:Ekf::resetHeight', 'EKF/ekf_helper.cpp:Ekf::resetVelocity', 'EKF/vel_pos_fusion.cpp', 'EKF/mag_fusion.cpp', 'EKF/optflow_fusion.cpp', 'EKF/airspeed_fusion.cpp', 'EKF/sideslip_fusion.cpp', 'EKF/drag_fusion.cpp', 'EKF/gps_yaw_fusion.cpp', 'EKF/covariance.cpp'])
p('C159',
  'Control decisions depend on elapsed times, not on the absolute clock',
  "Feed two estimators the same sequence of sensor arrivals, test outcomes and parameters, the second one on a clock that is ahead by a constant. Once both clocks are past the longest timeout (30 s), and the two start from the same modes with time stamps that differ by that constant (or mean 'never' on both), they take the same decisions for ever: the same aiding modes and flags after every update, the same measurements fused and states reset in the same order, the same warnings raised, and stored time stamps that keep differing by the constant. The one exception is the stamp of the last time the magnetometer was not inhibited: its age is cut to 32 bits, so if it still has its power-on value zero the inhibition request depends on the absolute clock modulo 2^32 microseconds.",
  'every constant clock offset below 2^62 us, every input history of any length (all times below 2^62 us and above the timeouts), every pair of starting states that agree up to the offset',
  'an absolute comparison or a wrapped difference shows up only at particular clock values, and a test runs on one clock; equality of two unbounded runs is a relational property',
  ['EKF/control.cpp:46-186 controlFusionModes', 'EKF/mag_control.cpp:42-330', 'EKF/ekf.h:isTimedOut/isRecent', 'EKF/ekf_helper.cpp resetMagHeading, resetYawToEKFGSF'])
p('C160',
  'Sensors switched off by a parameter do not influence the control decisions — except GPS',
  'If the vision bits of the fusion mode are clear and vision is not in use, external vision data have no influence: two histories of any length that differ in vision data only (arrival, age, test results) give the same modes, requests, fusions, resets, warnings and time stamps after every update. The same holds for optical flow data with the flow bit clear (the record flow keeps of its samples excepted), for drag samples when drag fusion is off, for magnetometer data with magnetometer type NONE, and for GPS data with both GPS bits clear on a vehicle that is not a fixed wing while no emergency reset is requested. It fails in three cases, shown by concrete histories (GPS samples then arrive because GPS is the selected height source): with GPS aiding off an emergency reset request is still answered with a heading, velocity and position reset from GPS; on a fixed wing with GPS aiding off, GPS speed above 5 m/s suppresses the heading reset to the compass after take-off; and a magnetometer of type UNUSED can be fused in three axes.',
  'all input histories of any length that differ in the data of one sensor, all starting states without that sensor in use',
  'independence from an input is a two-run property over unbounded histories; a test compares a few recorded flights',
  ['EKF/control.cpp:46-340 controlFusionModes, controlExternalVisionFusion', 'EKF/control.cpp:483-760 controlGpsFusion, controlGpsYawFusion', 'EKF/control.cpp:1264-1280 controlDragFusion', 'EKF/mag_control.cpp:43-118 controlMagFusion', 'EKF/ekf_helper.cpp:361-470 realignYawGPS'])
p('C161',
  'GPS samples reach the filter only if GPS position or GPS height is selected; the GPS heading bit alone is ineffective',
  'A GPS message is stored and later delivered only if the fusion mode has the GPS position bit or GPS is the selected height source. If only the GPS heading bit is set, then whatever the sequence of messages, IMU updates and queries, no GPS sample is ever delivered to the filter, GPS heading is never started and no GPS heading is ever fused. The same fix is delivered with fusion mode 129 and is lost with fusion mode 128.',
  'every interleaved history of sensor messages, IMU updates and filter queries (queries after the first 100 ms), every history of the control logic driven by the delivered samples, every fusion mode and height source of that kind',
  'the claim is that something never happens over unbounded histories of both the interface and the controller; a unit test with the usual fusion mode never sees it',
  ['EKF/estimator_interface.cpp:169-229 setGpsData', 'EKF/common.h:179-188 fusion mode bits', 'EKF/control.cpp:483-500 controlGpsFusion', 'EKF/control.cpp:736-771 controlGpsYawFusion'])
p('C162',
  'The estimate does not depend on which of the two quaternions of the attitude is stored',
  'Start the filter twice with the same state and covariance, once with a unit quaternion q and once with -q (and the covariances between quaternion and other states negated, as belongs to it). Then for every history of predictions, measurement updates of all sensors, state, covariance and yaw resets and restarts, the two filters report the same attitude matrix, the same velocity, position, bias, field and wind states, the same variances, the same covariances within the quaternion and within the other states, and the same stored values; between restarts the two filters are at any time either identical or again the two quaternions of one estimate.',
  'every filter state with a unit quaternion, every covariance matrix, every history of steps with arbitrary inputs (a tilt initialisation only after a reset, nothing fused between a reset and the covariance initialisation)',
  'the sign of the quaternion depends on the whole history and on the branch taken by the matrix to quaternion conversion; a test sees one sign on one flight',
  ['EKF/ekf.cpp: reset, initialiseFilter, initialiseTilt, predictState', 'EKF/covariance.cpp: initialiseCovariance, predictCovariance, resetQuatCov', 'EKF/ekf_helper.cpp: fuse, resetQuatStateYaw, increaseQuatYawErrVariance, initialiseQuatCovariances', 'EKF/mag_fusion.cpp', 'EKF/vel_pos_fusion.cpp', 'EKF/airspeed_fusion.cpp', 'EKF/sideslip_fusion.cpp', 'EKF/drag_fusion.cpp', 'EKF/optflow_fusion.cpp', 'EKF/gps_yaw_fusion.cpp'])
p('C163',
  'Recovery decisions at each GPS sample',
  'While GPS is in use and its checks pass, every GPS sample has exactly one of four effects: (1) an emergency yaw reset together with velocity and position resets, when one was requested or a yaw failure is detected (in flight, velocity directions differ, velocity fused since take-off, and either within 30 s of take-off without velocity fusion for the configured delay or aiding timed out with position fused since take-off), the number of resets is below the limit, the last was more than 5 s ago, GPS was not lost, and the yaw estimator can deliver; (2) no reset at all when (1) applies except that the yaw estimator cannot deliver; (3) otherwise, after a timeout, velocity and position resets with the timeout reported and a pending reset request cleared; (4) otherwise fusion only. At the start of GPS aiding the heading is reset to the compass exactly when it is not aligned, comes from vision or a long compass inhibition asked for it, and the request is cleared then.',
  'every state, every input of a control step with a GPS sample',
  'the combinations of five timers, three counters and six flags cannot be enumerated by tests; a wrong limit or an uncleared request shows only on rare flights',
  ['EKF/control.cpp: controlGpsFusion', 'EKF/ekf_helper.cpp: resetYawToEKFGSF, startGpsFusion, resetMagHeading'])
p('C164',
  'Mirrored flight, mirrored estimate',
  'Take a flight and its mirror image in the vertical north plane: east components of vectors, right components of body vectors, and roll and yaw rates change sign, everything else (times, variances, gates, parameters, heights, airspeeds) stays. Running the estimator on the mirrored data from the mirrored start gives, after any number of steps, exactly the mirror image of the estimate: every state, every covariance, every stored value. In particular a flight in the mirror plane never acquires an east velocity, position or wind, a roll or heading component or a bias on the mirrored axes, and never correlates these with the states in the plane. Covered: initialisation of the covariance, prediction, fusion of velocity, position, height, airspeed, sideslip, drag and optical flow, resets of velocity, position, height, wind, biases and magnetic field variances. Steps that choose an angle in (-pi, pi] (magnetometer, declination, heading and GPS yaw, yaw resets, tilt) are not mirrored at the end of that interval, which is shown by an example.',
  'every filter state (any covariance matrix), every history of the covered steps, every measurement, parameter and time',
  "the generated code has separate expressions for the X and Y axis of each sensor and for each covariance entry; a wrong sign in one term changes the result only slightly in any one flight, and a test compares against the code's own numbers",
  ['EKF/covariance.cpp: predictCovariance', 'EKF/ekf.cpp: predictState', 'EKF/drag_fusion.cpp: fuseDrag', 'EKF/optflow_fusion.cpp: fuseOptFlow', 'EKF/sideslip_fusion.cpp: fuseSideslip', 'EKF/airspeed_fusion.cpp: fuseAirspeed', 'EKF/vel_pos_fusion.cpp: fuseHorizontalVelocity'])
p('C165',
  'A reset to vision is followed by the old error',
  'When vision position (velocity) has not been accepted for the timeout the filter is reset to the measured position (velocity). One would expect the estimate to equal the measurement afterwards. The innovation is computed before the reset and fused after it, so exactly one of two things happens, for every state, covariance and sample: if the error before the reset is within the gate of the new variances, the estimate ends on the other side of the measurement at half the old error (horizontally both axes together, vertical velocity separately), and the sample counts as accepted; otherwise the estimate is the measurement and the sample counts as rejected. Both occur, also after the rejections that led to the timeout: with position variance 1, vision variance 10 and gate 5, an error of 20 m is rejected before and becomes -10 m after the reset.',
  'every filter state, covariance with non-negative variances, sample, gate, with a reported variance between the observation floor and the variance limit',
  'the reset has to coincide with a sample whose error passes the new gate but not the old one; a test that looks at a reset with a large error sees the measurement',
  ['EKF/control.cpp: controlExternalVisionFusion', 'EKF/ekf_helper.cpp: resetHorizontalPositionToVision', 'EKF/ekf_helper.cpp: resetVelocityToVision', 'EKF/vel_pos_fusion.cpp: fuseHorizontalPosition'])
p('C166',
  'Vision odometry and position resets',
  'With GPS and vision position both selected, vision positions are fused as changes since the previous vision sample. Every start of vision position fuses the starting sample without a previous one: whatever the sample says, the innovation left over from before is subtracted in full if it passes the gate, and both horizontal variances become 1e-6 m^2 whatever the accuracy of the reset; a GPS position of 0.1 m or worse then moves the estimate by less than a ten-thousandth of its innovation. The start of GPS resets the position but keeps the previous vision sample, so the next vision sample, if within its gate, takes back the fraction a^2/(a^2+r) of the jump (a: GPS accuracy, r: vision variance). (Findings.)',
  'every state, sample, parameter set and accuracy; every control input and state',
  'depends on reset, sample and GPS start falling into a particular order, and on real-valued gains',
  ['EKF/control.cpp:237-301', 'EKF/ekf_helper.cpp:162-217', 'EKF/ekf_helper.cpp:1417-1430'])
p('C167',
  'What the innovation getters report',
  'After every filter step the reported GPS velocity innovations, innovation variances and test ratio are those of the sample used in that step, zero if GPS aiding stopped, and otherwise unchanged; the same holds for GPS position, vision velocity, vision position and auxiliary velocity, each with its own exceptions. While vision is not in use its entries are zero after any history; GPS velocity entries are too as long as GPS was never switched off by the parameter. The exceptions: switching GPS off by the parameter leaves the numbers of the last sample in place; without any aiding the GPS position entries describe the synthetic position; the first vision sample used as odometry is reported (and judged) with the innovations of the sample before; auxiliary entries are never cleared.',
  'every state of the control logic, every input of a step, every previous content of the reported arrays, every number of a sample; every history for the statements about idle sources',
  'Which of the numbers are current depends on the whole history of starts and stops of five sources, with writes to the same array from different places',
  ['EKF/ekf_helper.cpp:getGpsVelPosInnov', 'EKF/ekf_helper.cpp:stopGpsFusion', 'EKF/control.cpp:controlGpsFusion', 'EKF/control.cpp:controlExternalVisionFusion', 'EKF/control.cpp:controlFakePosFusion'])
p('C168',
  'Which velocity the yaw failure test looks at',
  'The velocity remembered for the test that blames the heading (C126) is that of the last sample used of any kind in the order GPS, vision, auxiliary, so with an auxiliary velocity sensor it is never the GPS velocity: if the auxiliary velocity agrees in direction with the estimate the heading is not blamed whatever GPS says. The variance remembered with an auxiliary sample is the innovation variance of the previous auxiliary sample, zero for the first.',
  'every state, every input of a step, all velocities and variances',
  'The combination of an auxiliary sensor and a wrong heading in flight is not exercised by any test, and the remembered values are not visible',
  ['EKF/control.cpp:controlAuxVelFusion', 'EKF/control.cpp:controlGpsFusion', 'EKF/ekf.h:_last_vel_obs'])
p('C169',
  'A reset to GPS ignores the antenna position',
  'When GPS aiding starts or is reset after a timeout, velocity and position are set to the sample as received, which is the motion of the antenna, while the fusion of the same sample right after corrects it to the motion of the IMU. The state after the step is given exactly: each fusion is accepted iff the lever arm (velocity of the antenna relative to the IMU, position of the antenna) is within the gate for the new variances, and then moves the estimate towards the IMU by the share reset variance / (reset variance + observation variance); otherwise the estimate stays with the antenna. With the antenna at the IMU the sample is always accepted and the estimate equals it. When the accuracies are not cut by the parameters, at least half of the lever arm remains as an error however exact the sample.',
  'every GPS sample with accuracies between 1 mm and 1 km, attitude, turn rate, antenna and IMU position, parameters, estimate and covariance before; start and timeout',
  'the outcome depends on gates, variances and lever arm, all of them real numbers, and on a covariance emptied by the reset passing through four limiters',
  ["EKF/control.cpp:540,661-720","EKF/ekf_helper.cpp:66-72,197-203,1416-1424"])
p('C170',
  'GPS aiding bounds the time an estimate can disagree with GPS',
  'With GPS in use, its checks passing and not failed for the health time: if aiding timed out (or an emergency yaw reset is due that the yaw estimator can deliver), then after one GPS sample velocity and horizontal position agree with the sample up to the motion of the antenna relative to the IMU, whatever the estimate and covariance were before, and the timers restart; otherwise the sample is only fused with its gates. So on a flight with GPS as the only source of position, whatever happens to the estimate between samples, at every sample at most two reset timeouts have passed since a sample the position agreed with (test passed or set to it). An emergency yaw reset the yaw estimator cannot deliver suspends this.',
  'all GPS flights of any length, all estimates, covariances, attitudes, samples, timers and flags; the decisions and the numerical filter coupled through the acceptance of the fusions',
  'the guarantee joins timers with the values of the estimate, over all histories of adversarial estimate changes between samples',
  ['EKF/control.cpp:controlGpsFusion', 'EKF/ekf_helper.cpp:resetVelocity', 'EKF/ekf_helper.cpp:resetHorizontalPosition', 'EKF/vel_pos_fusion.cpp:fuseHorizontalPosition'])
p('C171',
  'What a height reset leaves behind at the fusion horizon',
  'A reset of the height (lack of fusion or bad vertical acceleration) writes the newest sample of the source, which is ahead of the fusion horizon by the measurement delay, into the state at the horizon; the same step fuses the sample that belongs to the horizon. With a the difference of the two samples, the result is exactly: newest sample minus P/(P+r) times a if a is within the gate for the reset variance P and the observation variance r (limited to the gate when the vertical acceleration is bad), and the newest sample otherwise. The error of the height at the horizon against its own sample is then at least half the climb during the delay when P is not above r, which always holds for the range finder and for a barometer with nonnegative noise parameter. A switch from barometer to GPS on a timeout steps the height by the change of the GPS height during the delay; with the barometer as primary source the GPS offset is realigned in the same step so that the step stays.',
  'all samples, parameters, covariances, histories before the reset; barometer, GPS and range finder',
  'tests reset the height with constant samples, where newest and delayed sample are equal',
  ['EKF/ekf_helper.cpp:258-333 resetHeight', 'EKF/control.cpp:773-892 controlHeightSensorTimeouts', 'EKF/control.cpp:958-1171 controlHeightFusion', 'EKF/vel_pos_fusion.cpp:147-179 fuseVerticalPosition'])
p('C172',
  'From the range buffer to a height above ground',
  'In one filter step, with the parameters of that step and for any earlier configuration of the sensor object, the range data are healthy exactly if a sample was delivered, it is at most 0.4 s old, samples arrive regularly, its quality is not zero and no sample of quality zero was seen within the configured hysteresis, the direction of the sensor is within the configured tilt limit, the measured range is within the limits and the stuck detector releases it. When healthy over level ground, the distance to the ground that the filter uses is the height of the IMU, whatever tilt, mounting pitch and sensor position. Over any history each stored range is that of one delivered sample with at most one position correction.',
  'all parameters, attitudes, samples, sensor states and histories',
  'tests use a few tilts and one mounting position; the composition of parameter updates, checks and correction over arbitrary histories is not tested',
  ['EKF/control.cpp:122-141 controlFusionModes', 'EKF/sensor_range_finder.hpp:71-98 setPitchOffset setCosMaxTilt setQualityHysteresis setRange', 'EKF/sensor_range_finder.cpp:48-139'])
p('C173',
  'What a vision sample resets; rejected vision velocities',
  'While vision aiding goes on, one vision sample has exactly these effects, in this order: if vision gives absolute positions (GPS not configured) and none was accepted for the reset timeout, the position is reset, and before it the velocity if neither velocity nor flow was accepted for a second; the position is fused; if vision velocity was not accepted for the reset timeout and neither flow nor position for a second (this sample included) the velocity is reset; velocity and heading are fused. Timers are restarted by acceptance only, so a rejected sample after a reset leads to another reset. Finding: as long as positions are accepted, rejected vision velocities never lead to a reset, however long that lasts, and vision velocity counts as in use all the time.',
  'every state and input of the control functions; all histories of steps with accepted positions and rejected velocities, of any length',
  'Depends on four timers and two test outcomes of the same sample; the finding is about unbounded histories',
  ['EKF/control.cpp: controlExternalVisionFusion', 'EKF/ekf_helper.cpp: resetVelocity, resetHorizontalPosition', 'EKF/vel_pos_fusion.cpp: fuseHorizontalPosition, fuseHorizontalVelocity'])
p('C174',
  'NaN measurements of the other sensors',
  'An innovation test written as reject-if-greater lets a NaN measurement through: airspeed, sideslip, magnetometer (any axis, unless it is the z axis that a synthetic value replaces), compass heading, antenna heading and optical flow; tests written as use-if-at-most (drag, range finder, velocity and position) reject it. For numbers all these tests accept exactly what lies within the gate. One accepted NaN innovation makes the attitude NaN whatever the gains, also when only the wind is to be corrected, and from then on attitude, velocity and position are NaN after every prediction, through every history of measurement updates, resets of velocity, position, biases, fields and wind, and heading resets; only initialising the filter anew ends it.',
  'every gate, variance and measurement, NaN or number; every state, gain vector and history of predictions, updates and resets',
  'a NaN sample comes from a driver fault; tests feed numbers, and that no later reset heals the state is a statement about all histories',
  ['EKF/airspeed_fusion.cpp Ekf::fuseAirspeed', 'EKF/sideslip_fusion.cpp Ekf::fuseSideslip', 'EKF/mag_fusion.cpp Ekf::fuseMag, Ekf::updateQuaternion', 'EKF/optflow_fusion.cpp Ekf::fuseOptFlow', 'EKF/gps_yaw_fusion.cpp Ekf::fuseGpsYaw', 'EKF/drag_fusion.cpp Ekf::fuseDrag', 'EKF/terrain_estimator.cpp Ekf::fuseHagl', 'EKF/ekf.cpp Ekf::predictState', 'EKF/ekf_helper.cpp Ekf::fuse, Ekf::resetQuatStateYaw, Ekf::constrainStates'])
p('C175',
  'GPS quality checks on NaN',
  'The accuracy checks on GPS messages (dilution of precision, position and speed accuracy) fail exactly on numbers above the limit, so NaN passes. After one message with a NaN down velocity, or taken while the vertical velocity of the state is NaN, the vertical speed check passes for ever, through all later messages and filter resets, whatever velocities are reported. After a NaN horizontal velocity at rest the horizontal speed check passes until the vehicle moves. A receiver that stands still and reports NaN for every accuracy and velocity is declared good exactly when the health time has passed since its first message, with all checks enabled. Without NaN the checks are the ones modelled before.',
  'every message, NaN or number; every state; every history of messages and filter resets; every parameter set with non-negative drift limits',
  'tests feed numbers; that the check stays blind is a statement about all later histories',
  ['EKF/gps_checks.cpp Ekf::gps_is_good', 'EKF/ekf_helper.cpp Ekf::resetGpsDriftCheckFilters', 'EKF/ekf.cpp Ekf::reset', 'EKF/ekf.h Ekf::_gps_velD_diff_filt'])
p('C176',
  'The wind estimator heals itself from NaN',
  'An initialised wind estimator with NaN anywhere in its states or its covariance, or given a velocity that contains NaN, or given a NaN airspeed, is declared invalid by the next airspeed sample that is not too early, and restarts with numbers only at the first sample of numbers with at least 3 m/s over ground. From any state whatever, after one airspeed sample made of numbers that is not too early, an estimate reported as valid consists of numbers through every further history of calls with numbers. The one gap is the start: an invalid estimator given a NaN airspeed starts and reports a valid estimate that is NaN until the next sample that is not too early.',
  'every state including ones with NaN in any place; every call with numbers or NaN; every history of calls',
  'tests feed numbers; the statement ranges over all placements of NaN and all later histories',
  ['airdata/WindEstimator.cpp WindEstimator::fuse_airspeed, WindEstimator::fuse_beta, WindEstimator::initialise, WindEstimator::run_sanity_checks, WindEstimator::check_if_meas_is_rejected', 'airdata/WindEstimator.hpp WindEstimator::is_estimate_valid'])
p('C177',
  'Velocities with a poor accuracy never teach the yaw estimator anything',
  '(Finding.) The accuracy passed to the backup yaw estimator with a GPS velocity is that of the vertical position. If every velocity of a history, of any length, comes with an accuracy of 57 m or more, then once aligned all five yaw models stay equally likely: each velocity fused while a yaw is available makes the yaw unavailable, the next one starts the bank again with evenly spaced yaws and that velocity. In the main filter this holds whatever speed accuracy the receiver reports. With a good accuracy one velocity after the first already makes one model more likely.',
  'all histories of calls, inertial samples and velocities; all sequences of main filter steps',
  'quantifies over unbounded histories',
  ['EKF/EKFGSF_yaw.cpp:update', 'EKF/EKFGSF_yaw.cpp:initialiseEKFGSF', 'EKF/EKFGSF_yaw.cpp:gaussianDensity', 'EKF/ekf_helper.cpp:runYawEKFGSF'])
p('C178',
  'The terrain estimate heals from NaN, but a NaN variance is not noticed',
  'Whatever the terrain estimate was, NaN included: a step on ground, a step using a flow sample, or a step using a range sample 10 s after the last fusion while the position is NaN makes position and variance numbers, and they stay numbers in every further history with numeric inputs, even if flow rates are NaN: such flow samples are never fused. (Finding: if only the variance is NaN, the innovation test does not notice; the first accepted range makes the position NaN and the variance zero, and the terrain estimate is reported valid for 5 s and stays NaN for 10 s unless a flow sample comes.)',
  'all estimates, inputs and histories',
  'quantifies over all histories and inputs',
  ['EKF/terrain_estimator.cpp:fuseHagl', 'EKF/terrain_estimator.cpp:fuseFlowForTerrain', 'EKF/terrain_estimator.cpp:runTerrainEstimator', 'EKF/terrain_estimator.cpp:updateTerrainValidity'])
#--MOREPROPS--
if __name__=="__main__":
    d=os.path.dirname(os.path.abspath(__file__))
    with open(os.path.join(d,"..","properties.jsonl"),"w") as f:
        for x in P: f.write(json.dumps(x)+"\n")
    print(len(P))
