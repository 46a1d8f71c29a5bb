## 5. Findings (behaviour that contradicts the documented or intended property, each proved)
* **Optical flow fusion destroys the covariance (C140, `flow_indefinite`).** EKF/optflow_fusion.cpp computes the gain of the second axis for attitude and velocity before the first axis is fused, but `measurementUpdate` subtracts `K H P` with the covariance after it. With north and east velocity variances of 100 (m/s)^2 and correlation 0.7, default noise, level at rest one metre above the ground and zero innovations, one accepted fusion leaves a covariance in which the sum of the two velocities has a variance below -35 (m/s)^2. No check notices it: all variances stay positive.
* Ring buffer: query times below 100 ms re-deliver or invent samples; a length of 256 is unusable (C03).
* Interface: 8-bit averaging counter divides by zero after 256 samples (C12); minimum observation interval divides by zero for a one-slot buffer (C14);
  time shift loses precision without bound as time stamps are converted to float (C15); bias variance uses dt instead of dt² (C63).
* Range finder: not looking down before the first tilt update, an unconfigured one looks up (C08).
* Covariance: inhibited bias axes, variance caps and the growth stop break positive semi-definiteness (C72, C73, C82); accelerometer floor above cap (C26).
* Fusion: sideslip with zero forward speed divides by zero (C30); mixed gain of flow Y (C31); stale innovation between axes (C28, C32); declination not wrapped
  (C34); GPS yaw blind when the antenna points east/west (C33); yaw inhibition ineffective (C85); inhibited accelerometer axes still corrected (C87);
  NaN in one horizontal axis or under an inhibited gate is fused (C36); NaN flow admitted, zero flow rate limit drops moving samples (C121); flow gyro bias estimator
  uses the wrong sign convention, a perfect gyro gives −2ω (C84).
* Status: 18 flags in a 16-bit word (C56); rejection bits off by one (C88); velocity accuracy uses a position innovation (C89); height ratio unwritten (C91);
  time 0 is a marker (C57).
* Height: loss of GPS can leave no height source for good (C20); stale vision height fused (C92); fallback to GPS undone by next barometer sample (C95);
  ground effect compensation never expires while the barometer is a fallback (C93); one clipped sample counts as frequent, the detector result is never used (C118);
  negative innovation variance passes (C119).
* GPS: fix type check never fails because messages without fix are dropped (C97); commanded origin altitude overwritten (C98); sample buffered before the origin
  stays at (0,0) (C115); drift report marked fresh with old values (C113); timer starvation in odometry mode, reset every 14 s (C107).
* Geo: distance-to-line past end on long tracks (C99); distance-to-arc sector test (C100); longitudes beyond ±540° clamped (C46); declination interpolated across the wrap (C47).
* Terrain: repeated resets (C48), valid for 5 s without sensor, flow counted as range (C49).
* Wind estimator: exchanged Jacobian rows in the initial covariance, process noise on NE covariance, growth depends on rate, caps break validity, backward time passes (C50, C51, C102, C103).
* Yaw estimator: bias copied without limit (C54); tilt alignment 0/0 (C104).
* Magnetometer control: 3-axis fusion continues under disturbance; declination flag stays after a fault; switching to NONE keeps the compass in use (C55, C114);
  emergency resets uncounted without GPS aiding, 8-bit counter (C59); two yaw sources active (C106); types INDOOR and UNUSED never align (C105).
* Heading resets: vision yaw read with one sequence and written with another (C116); course variance capped (C117).
* Measurements: vision lever arm before frame rotation, frozen alignment (C124); GPS resets ignore the lever arm (C125); GPS timeout reset zeroes velocity (C122);
  auxiliary velocity reset variance (C127).
* Yaw estimator inputs: the vertical position accuracy is handed over as the speed accuracy, the reported speed accuracy is ignored; a vehicle that is not fixed wing keeps
  using the last airspeed however old (C129).
* Published velocity: the gyro bias is not removed from the rate used for the lever arm; the yaw rate filter divides by the sample interval unguarded (C130).
* Wind reset: airspeed taken as horizontal (C75).
* Start-up: `update` does not consume the IMU sample, a second call predicts twice (C133); range and GPS height variances are unreachable at initialisation (C134);
  `reset` keeps sample counters, averages and the heading reset time, so it re-initialises without new data and can report a false yaw alignment (C135).
* Whole filter: a negative variance in vision data is put into the covariance unchecked by a reset (C137).
* Partial updates: airspeed and sideslip fusion while other aiding is in use (and magnetometer fusion in its first 5 s, heading fusion during 3-axis fusion) zero part of the
  gain but correct the covariance as if it were optimal; the result need not be a covariance: variance -0.6 from a valid matrix (C140).
* Floating point: a NaN variance passes the health check and all limits and is never healed by updates (C143).
* Covariance consistency: the second and third magnetometer axes are fused with recomputed gain and variance but the innovation from before the first axis: the reported
  variance can be 36 times smaller than the mean square error; corrections of selected states only leave wrong cross covariances; the horizontal velocity and position pairs
  are consistent but use a stale innovation variance and so discard information. One GPS sample: the position innovation is taken before the velocity is fused,
  so the velocity information is counted twice for the position: reported variance 0.01, mean square error 0.35 (C145).
* The minimum observation interval does not guarantee what its comment claims (no accepted sample overwritten before it is due) while the IMU buffer is filling:
  with the default 9 slots 13 samples are accepted and 4 of them lost (C146).
* GPS lock-out: when a velocity direction mismatch asks for an emergency yaw reset and the yaw estimator has no converged answer, EKF/control.cpp:641-671 does nothing at all
  (the position and velocity reset is in the `else` branch): from a reachable state GPS stays "in use" with every sample rejected and no reset, for any length of time (C149).
* Position freeze: flying on optical flow alone with the terrain estimate lost for more than ten seconds, every good flow sample resets the velocity and puts the position back
  to the last known one with zero variance; the reset does not restart the timer that causes it, so this goes on until flow is accepted again (C153).
* Accuracy: after an accepted horizontal fix of variance R the reported east variance can be more than 25 R (stale innovation variance, correlated errors) (C152).
* C154: the covariance prediction evaluates its transition matrix at the already predicted attitude, which makes its velocity rows exact for accelerometer bias errors; it uses a fixed 10 ms and Euler position integration while the state uses the measured interval and the trapezoidal rule (`bias_position_error_ignored`).
* C155: all three magnetometer innovations are tested with the variances before the fusion and are not recomputed between axes, so an axis that passed a 3-sigma test can move a body field state by 10 of its reported deviations (`mag_moves_beyond_gate`); no other sensor can exceed its gate.
* C157: `realignYawGPS` (EKF/ekf_helper.cpp:373) falls back to `resetMagHeading` without the disturbance test that `canResetMagHeading`
  makes for all other vehicles, so a fixed wing climbing through 1.5 m while the field is disturbed resets its heading to the disturbed
  compass (`disturbed_compass_used`).  With the magnetometer type INDOOR (and UNUSED) a requested reset fails every time and stays
  requested (`indoor_request_stays`).
* C159: `checkMagInhibition` (EKF/mag_control.cpp:244-255) cuts `imu time - time last not inhibited` to 32 bits; the second stamp starts at zero, so with a magnetometer inhibited from power-on the request to inhibit depends on the absolute clock modulo 71.6 minutes (`inhibition_depends_on_clock`).
* C160: with the GPS bits of the fusion mode clear but GPS selected as height source (so that `setGpsData` stores samples), GPS still (a) answers an emergency request with a yaw, velocity and position reset (`disabled_gps_sets_heading`) and (b) on a fixed wing above 5 m/s suppresses the compass heading reset after take-off (`disabled_gps_blocks_compass`); magnetometer type UNUSED can be fused in three axes (`unused_mag_fused`).
* C161: `setGpsData` ignores the GPS heading bit (MASK_USE_GPSYAW): with that bit alone no GPS sample is stored, so GPS heading can never be used (`heading_bit_alone_has_no_effect`). Two related observations on the same function, by reading only: the antenna offset is taken from the newest message, not from the delayed sample that is fused, and `_gps_speed_valid` is written and never read, so an invalid GPS velocity is fused like a valid one.
* C164: the declination limit is not symmetric at its cut: an earth field estimate pointing exactly south, which is its own mirror image, is turned to the east (`south_field_not_mirrored`, mag_fusion.cpp:925-945, atan2f returns +pi).
* C165: after a timeout the vision position or velocity innovation computed before the reset is fused after it (control.cpp:258-301, 309-326): the estimate is put on the other side of the measurement, by half the old error, if that passes the gate.
* C166: with GPS and vision position both selected (a) the first vision sample after every start or reset is fused with variance zero, which makes the filter certain of its horizontal position (1 mm) and gives GPS positions no weight; any innovation left over from before is applied in full (control.cpp:246-248, 301); (b) `startGpsFusion` resets the position without clearing `_hpos_prev_available`, so the next vision sample takes back most of the jump (5 m at 2 m accuracy: 4.7 m taken back).
* C167: reported innovations can be stale or of another origin: GPS switched off by the parameter leaves the last sample's numbers (control.cpp:549-552 clears only the flag); with no aiding the GPS position getters describe the synthetic position (control.cpp:1323-1328); `stopAuxVelFusion` is never called; `Ekf::reset` clears none of them.
* C168: with an auxiliary velocity sensor the yaw failure test compares the estimate with the auxiliary velocity, not GPS (control.cpp:617, 1345), and its variance is that of the previous auxiliary innovation (control.cpp:1347 assigns in the direction opposite to the one the fusion needs).
* C169: resets to GPS use the antenna's position and velocity (ekf_helper.cpp:66-72, 197-203); the lever-arm correction only comes afterwards (control.cpp:680-689), so at least half of the lever arm stays in the estimate after a reset with an exact sample, and all of it if it is outside the gate.
* C171: a height reset writes the newest sample into the state at the fusion horizon (ekf_helper.cpp:266-312) and then fuses the delayed one (control.cpp:1104-1153): while climbing, at least half of the climb during the delay stays as height error at the horizon; a timeout switch from barometer to GPS steps the height by the same amount although the GPS offset has just been aligned (ekf_helper.cpp:1266, 295). Horizontal resets use the delayed sample.
* C173: with vision position and velocity in use, rejected vision velocities never lead to a reset while positions are accepted (control.cpp:316 asks that no position was accepted for a second, and the position of the same sample is fused before); vision velocity stays flagged as in use for ever. The velocity estimate is then corrected through the positions only.
* C174: innovation tests of the form `ratio > 1 → reject` let NaN through: airspeed (airspeed_fusion.cpp:147), sideslip (sideslip_fusion.cpp:165), magnetometer (mag_fusion.cpp:180), compass heading (mag_fusion.cpp:643), antenna heading (gps_yaw_fusion.cpp:151, though its data are checked for finiteness before use) and optical flow (optflow_fusion.cpp:246). One NaN airspeed or magnetometer sample destroys all states, also if only the wind is corrected (0 · NaN), and no velocity, position or heading reset heals it. Tests of the form `ratio <= 1 → use` (drag, range finder) are safe.
* C175: every GPS check is written `value > limit → fail`, so NaN passes (gps_checks.cpp:166-173, 213-252); a receiver reporting NaN for all accuracies and velocities is declared good after the health time. `_gps_velD_diff_filt` is the one filter that `resetGpsDriftCheckFilters` leaves out (ekf_helper.cpp:1663-1667): one NaN down velocity blinds the vertical speed check until the program restarts, `Ekf::reset` included.
* C176: the wind estimator, unlike the main filter (C174), checks its states for finiteness after every fusion (WindEstimator.cpp:328-331) and so recovers from NaN with the next good sample. The check is missing after `initialise` (WindEstimator.cpp:41-94): a NaN airspeed at start-up or re-start gives a NaN estimate that `is_estimate_valid` reports as valid until the next fusion.
* C177: consequence of the C129 finding that the vertical position accuracy is passed as velocity accuracy (ekf_helper.cpp:1659): a receiver with a good speed accuracy but a vertical accuracy of 57 m or worse restarts the yaw estimator at every other sample, and the emergency yaw is never better than the evenly spaced start. Proved for all histories (`coarse_main`, `coarse_restarts`).
* C178: `fmaxf(_terrain_var + obs_variance, obs_variance)` (terrain_estimator.cpp:151) drops a NaN variance, so the innovation test passes with the observation variance alone; the gain (:159) is then NaN: the position becomes NaN, `fmaxf(.., 0)` makes the variance 0 and the estimate is flagged valid (`nan_variance_published`).
