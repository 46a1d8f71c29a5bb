C01 Whole class modelled on index arithmetic; forward simulation to an abstract bounded queue, by induction over operation lists.
C02 Loop invariant of the backward search; delivered-at-most-once by induction over histories.
C03 Concrete operation histories evaluated in the kernel as refutations of the unrestricted contract.
C04 Fold over the input list; closed form, hull and limit by induction.
C05 Case analysis of the two guards, weight in [0,1] over any linear ordered field.
C06 Rotation accumulation as products in the unit quaternions; invariant "accumulated + emitted = input" over input lists.
C07 Invariant on the accumulated time of the down-sampler over input lists.
C08 Complete state machine of the sensor; iff characterisation of the health flag at every step.
C09 Inductive invariant of the stuck detector (min, max, flag).
C10 Invariant of the interval low pass.
C11 Ports as queue + thinning; refinement and gap theorem by induction over pushes.
C12 Partition of the pushed list into groups; mean of every group; 8-bit counter refutation.
C13 Float ceil modelled by integer ceiling on rationals; maximum characterised by `IsGreatest`-style statement.
C14 Definedness of the division; witness configuration.
C15 IEEE-754 single rounding modelled (24-bit round to nearest even); error bound and unboundedness witness.
C16 Iff over all sample histories.
C17 Counting over the flags, exhaustive in the Booleans but stated for every state.
C18 Invariants of two recursive averages.
C19 Whole height control and timeout code; invariant over all operation lists.
C20 Invariant "no source" over all continuations without a range/vision opportunity.
C21 Reset functions on the whole estimator (state, output, buffers, counters); exact shift relation.
C22 Relation "output buffer − state" invariant under every reset.
C23 Componentwise clamps; nearest point.
C24 Quadratic form algebra with Cauchy–Schwarz for positive semi-definite forms.
C25 Case analysis of the health check on all 24 variances.
C26 Entry-wise characterisation of `fixCovarianceErrors`.
C27 All generated expressions transcribed by script; each of the 300 entries proved equal to F P Fᵀ + G Q Gᵀ; F and G proved to be derivatives.
C28 Generated equations transcribed; Jacobian by `HasDerivAt`, gain and variance as matrix identities; whole fusion function.
C29 As C28.
C30 As C28; witness for zero forward speed.
C31 As C28; the gain of the second axis refuted.
C32 As C28.
C33 As C28 for four yaw sequences; blind sector theorem.
C34 As C28 plus the declination limiter.
C35 Gate predicates and frame conditions for all horizontal/vertical velocity/position fusions.
C36 Numbers extended by NaN with C comparison semantics.
C37 Ten checks as a Boolean vector, time invariant over message lists.
C38 Invariant over message/command lists.
C39 Matrix identities; orthogonality and determinant.
C40 Exact arithmetic algebra of the compensation term.
C41 Real analysis of the azimuthal equidistant projection on the sphere.
C42 Case analysis on the initialised flag.
C43 Haversine as chord; symmetry, zero iff same point, upper bound.
C44 Spherical trigonometry.
C45 Algebra over ℝ.
C46 Interval arithmetic on the index computation, all inputs.
C47 Bilinear interpolation; node exactness, continuity across cells; counterexample at the date line of angles.
C48 State machine of the terrain estimator over all steps.
C49 History invariant for validity.
C50 Invariants over all operation lists of the wind estimator.
C51 Exact gates; histories.
C52 Weights invariant by induction over updates.
C53 Generated 3-state equations transcribed; Jacobians by derivatives; PSD invariant.
C54 Clamps as invariants.
C55 Control step modelled over all flags; invariant over histories (frame lemmas generated).
C56 Bit-vector layout of the unions.
C57 History predicate.
C58 64-bit wrap-around arithmetic.
C59 Histories of control steps with the counter.
C60 Rank-one update along the yaw direction.
C61 Induction on the exponent.
C62 Trigonometry of the boresight.
C63 Algebra; refutation of the unit.
C64 Group partition as C12.
C65 Fold of a first-order filter.
C66 Quaternion algebra; external library conversions modelled in `Ekf/QuatLib`.
C67 Buffer maps.
C68 Kinematic equations; exactness for constant acceleration.
C69 Trigonometry of the accelerometer tilt.
C70 Complementary filter steps.
C71 Loop invariant over the vertical buffer.
C72 Concrete matrix witness.
C73 Concrete matrix witness.
C74 Jacobian sandwich; derivative of the quaternion exponential map.
C75 Matrix algebra of the reset.
C76 Save/restore on sub-blocks.
C77 Hysteresis as history predicate.
C78 Interval arithmetic.
C79 Induction over measurement lists.
C80 Entry-wise.
C81 Entry-wise and with the float cancellation stated.
C82 PSD of F P Fᵀ + G Q Gᵀ; witness for the growth stop.
C83 Affine interpolation.
C84 Recursion with clamps.
C85 Case analysis of the source priority.
C86 Algebraic identity for the field magnitude.
C87 Whole function effect.
C88 Bit layout refutation.
C89 Case analysis, lower bounds.
C90 Case analysis.
C91 Case analysis.
C92 Exact selection table.
C93 Exact observation and innovation; first-step zero innovation; offset tracking; ground effect compensation.
C94 Exact timeout table.
C95 Two-step witness for all states meeting the hypotheses.
C96 Folds of first-order filters with clamps.
C97 History theorem.
C98 Composition of projection and its inverse.
C99 Plane and sphere geometry.
C100 Case analysis of the sector test.
C101 As C28 for the scalar terrain state.
C102 As C28 for the three-state wind filter.
C103 Linear algebra and counterexamples.
C104 Rotation algebra.
C105 Histories of the control step.
C106 Histories of the control step.
C107 Periodic history.
C108 Exact start/stop conditions.
C109 Exact start/stop conditions.
C110 Exact conditions.
C111 Exact conditions.
C112 Exact conditions.
C113 Case analysis.
C114 Exact conditions with hysteresis.
C115 Histories of messages.
C116 Rotation algebra on the whole estimator.
C117 Trigonometry, covariance entry.
C118 Histories, counters.
C119 Histories, hysteresis.
C120 Real algebra, sign and monotonicity.
C121 Admission predicate with NaN.
C122 Complete case analysis of reset targets on the whole estimator with covariance.
C123 As C122.
C124 Rigid-body algebra of the vision frames.
C125 Rigid-body kinematics: velocity of a point as a derivative.
C126 Exact predicate.
C127 Composition with the fusion model.
C128 History predicate.
C129 Exact value of every call made, refutation witnesses.
C130 Rigid-body kinematics: velocity of a point as a derivative; exact filter recursion.
C131 Real analysis: directional derivatives of the rotation vector, projection of the covariance.
C132 Induction over call histories; counters as invariants; totality.
C133 Induction over call histories.
C134 Composition of tilt, heading reset, covariance and output alignment models.
C135 Exact effect, refutation witnesses for every state.
C136 Induction over call histories; convexity.
C137 Transition system of all writers of state and covariance; induction over histories; closure of an invariant under every fusion function.
C138 Same transition system; unit quaternion as an invariant of every step, limits from the last step of the prediction.
C139 Zero innovation through every fusion model, then induction over histories of the whole filter; constant-acceleration motion by C68 one sample at a time.
C140 Every step of the whole filter is shown to keep `PSD` (congruence, Schur complement, block resets; the limiter commutes with deleting unused states); induction over histories. Witness for wind-only airspeed fusion.
C141 Floats are NaN or extended reals, every operation rounds with an arbitrary monotone rounding (IEEE round-to-nearest is one, proved); the conditioning functions are modelled operation by operation and the products subtracted are arbitrary. `update_exact`: with exact arithmetic the model is that of C01-C04.
C142 Quaternion product, norm and normalisation with the rounding of each operation; error bounds from relative error 2^-24 plus 2^-149, which `binary32_single` proves for round-to-nearest of binary32; induction over histories.
C143 Same float model as C141: NaN passes every comparison of the conditioning code unnoticed (induction over updates); limits of the states by case analysis of `constrain`.
C144 Error bounds per operation as in C142 and induction: the contraction of the average (factor 0.99) and the normalisation of the weights absorb the roundings.
C145 Estimate, truth and noise as L² random variables on a measure space, the modelled fusion code run in every outcome; bilinearity of second moments gives the moments of the corrected error, compared with the covariance the code reports when no limit acts (`fix_quiet`). Excludes quaternion entries (renormalisation is not linear) and conditions on the gate accepting in every outcome.
C146 Specification with unbounded memory (`Spec.dueRun`); the abstract queue of C01 is shown to hold exactly the samples not yet due (spacing argument for the capacity), then lifted to the ring buffer by C01 and to the rate-limited sensor input by C11; refutations are concrete histories evaluated in the kernel.
C147 The model of C70 iterated over cycles of IMU samples; the uniform shift of the history gives an exact delay-free recursion; the loop is diagonalised (real eigenvalues for every gain) and bounded mode by mode; the vertical loop by a quadratic Lyapunov function. The attitude loop is C148.
C148 `Ekf/TrackingYaw.lean`: `delay_loop` bounds e(k+D+1) = e(k+D) - g_k e(k) + w_k for g D <= 1/2 by strong induction over windows of 2 D + 1 values; the predictor cycles of C147 restricted to rotations about the vertical give that recursion exactly, with the sine of the half error between 2/pi and 1 times the error; the bound itself keeps the error within half a turn.
C149 `Aid/Lockout.lean`: one step of the aiding control from the frame lemmas; the position timer is shown to change only with an accepted position or a GPS reset, so the bound lifts to histories by induction; the finding is an invariant (`Spec.Waiting`) over histories of any length plus a history from power-on that reaches it.
C150 `Gsf/Select.lean`: one fusion multiplies every relative weight by at most max(likelihood ratio, level of the lower limit) (from C52); chained by induction over arbitrary call histories; the published yaw from the geometry of a resultant with a dominant term. `Gsf/SelectEx.lean` evaluates a whole history exactly (alignment, start, one accelerated sample) to show the hypotheses can be met with a factor below one.
C151 Terrain/Converge.lean. `Spec.excess` = distance of the estimate from the sensor error band around the ground; one step is a convex combination (`fuseHagl_spec`), a reset, or nothing, then the clearance clamp; induction over the flight with the count `Spec.effective`; no lock-out from the ten-second reset.
C152 Fusion/Accuracy.lean. Diagonal of the covariance after a direct observation including limits (`direct_diag` from C26), `Spec.weighted`/`Spec.pooled`; repeated heights by induction; east axis: exact value `q − q²/(P+R)` bounded by completing the square, refutation on a concrete correlated covariance.
C153 Aid/Lockout2.lean. The position timer lemmas of C149 give the vision bound by induction over the history; the flow case is an invariant `Spec.FlowOnly` of the whole step; reachability from power-on by kernel evaluation of a three-step prefix, then induction for any number of samples.
C154 Whole-filter prediction (C68 + C27) applied to two states; difference of outputs against the derivative of the process model at the predicted state; small-angle bound for the rotation quaternion of the matrix library
C155 Cauchy-Schwarz for the covariance form gives |K v| <= gate * deviation for every gain P h / S with S above h P h (also a stale S); applied to the specifications of C28-C35, C48, C101; witness for the magnetometer built with the known-attitude axis lemma of C145; combined with C140 over whole histories
C156 One state for all inputs, one step function over a sum of events; frame lemma per event gives independence by induction over the history (filter of the history); safety by the ring buffer refinement, the averager invariant and a bound on the binary32 stamp shift
C157 Pointwise theorem about the whole control function: exact value of request, alignment flag and list of recorded heading resets in every case, by a 'kept' relation for mode selection and fusions; memory and recovery over two complete updates; witnesses by kernel evaluation of runs
C158 One lemma per fusion function that its observation, gain and covariance update do not read the position entries (generated for the Jacobians), the flow range only through the height above terrain; commutation of every step with the displacement, then induction over the history
C159 `Aid/Clock.lean`: relation "same state, stamps moved by delta" preserved by every function of the control step (two-run induction over input histories); UInt64 arithmetic lemmas for each comparison form (t + limit < now, now - t, t + limit <= now, t = now, t = 0); a concrete witness shows the 32-bit age of the last non-inhibited time is the exception.
C160 `Aid/Disabled.lean`: each stage of the control step is shown not to read the inputs of the sensor (definitional equality) or to be the identity when the sensor is off; induction over histories gives equal runs; three concrete histories (kernel evaluation) show where a switched-off GPS or an UNUSED magnetometer still acts. Flow (`Aid/DisabledFlow.lean`): a relation `equal but for four bookkeeping fields` kept by every stage; a small tactic walks through each function body in the two runs.
C161 `Interface/GpsHeading.lean`: invariant "the GPS buffer is empty" over all events of the nine-stream interface when GPS is not needed; the answers drive the control logic of `Aid`, where an update without a GPS sample cannot enter or use GPS heading; a concrete history with mode 129 and 128 (kernel evaluation).
C162 `Whole/Cover.lean`: sign change of the quaternion states as a diagonal +-1 transformation; every generated expression (prediction, innovation variances, observation Jacobians, gains) is shown to be even or odd under it (generated lemmas `CoverGen`, `CoverPred`), the hand-written steps are done by hand, the attitude norm is an invariant, and a two-run induction over histories gives the result.
C163 `Aid/Recovery.lean`: exact case analysis of the GPS part of the control step, with the decision conditions restated as propositions (no flags computed by the model) and the list of operations performed as the observable.
C164 Sign change of the 24 states by a diagonal matrix, equivariance of each generated expression (gains, innovation variances, covariance prediction; generated lemmas) and of each hand-written step; then induction over the history. Angle-choosing steps excluded, with a witness.
C165 Model of one vision sample in the order of control.cpp (innovation, resets, fusion); the reset leaves the reset states uncorrelated, so the gain is exactly variance/(2 variance); zero correlation is kept by the covariance limiter (sign-change argument of C162/C164).
C166 `Whole/VisionOdometry.lean`: gain of an uncorrelated position is exactly variance/(variance + noise); zero noise gives gain 1 and the lower variance limit (`fuse_alone`); control level: the first sample is recognised by the flag, GPS start keeps the flag.
C167 `Aid/Reported.lean`: the arrays behind the getters as a second state driven by the control model, written in the order of the code; exact value per channel after one step in terms of flags before and after the step, then induction over histories.
C168 Same model: last writer of `_last_vel_obs` in a step; combined with the geometric form of the test (C126).
C169 Model of one GPS sample in the order of control.cpp (start or timeout resets from the raw sample, correction, three fusions); the reset leaves velocity and position uncorrelated, every fusion of an uncorrelated state is exact and keeps the others, so the final state is a closed formula.
C170 The operations recorded by `Aid.controlGps` are interpreted on states and covariance (`runReset`, shown equal to `resetVelocity`/`resetHorizontalPosition`), the fusions are those of C169, and the acceptance flags of the control logic are those of the fusions; case split of C163, then induction over the list of samples with the position timer as the link (`Whole/GpsClosed.lean`).
C171 `Whole/HeightReset.lean`: one step made of the timeout handling and the height fusion of C92-C95 on the height members and of the reset and the scalar fusion on the filter. The reset leaves state 9 uncorrelated (`uncorrSet`), so the fusion is the scalar update (`vpos_lone`); source selection with the source kept changes nothing the observation depends on (`select_kept`).
C172 `RangeFinder/Step.lean`: the step composes delivery, the three parameter setters, `runChecks` (C08-C10, C62) and the in-place correction of the sensor position; the height theorem uses that a healthy sample has a positive tilt cosine; the history theorem is by induction from the end.
C173 `Aid/VisionRecovery.lean`: the log of `controlEv` is computed exactly by cases over the timers and test outcomes and compared with a decision table over the state before; the finding is an invariant of `step` over all histories whose inputs accept positions and reject velocities, reached from power-up.
C174 gates and innovations of eight sensors over reals with NaN (Fusion/OthersNaN); prediction, heading reset (rotation matrix, both Euler sequences, quaternion) and updates over the same type; loss of the attitude is an invariant of every history, by induction.
C175 the checks of C37 and C96 over reals with NaN (Gps/NaN), equal to the real model on numbers; NaN filters are invariants over histories; the receiver without a number is followed by induction over its messages.
C176 the wind estimator over reals with NaN (Wind/NaN); a number comes out of H P Hᵀ only if everything that went in is a number, so NaN reaches the gain and all states and the finite check sees it; honesty of the valid flag is an invariant of histories.
C177 the yaw estimator model of C52 (Gsf/Coarse): with r = accuracy², det S ≥ r² bounds every likelihood by 0.16/accuracy², so with equal weights all fall below the clip of 1e-5; equal weights are an invariant of histories; the calls of the main filter from C129; the contrast is the history of C150.
C178 the terrain estimator of C48 over reals with NaN (Terrain/NaN); fmaxf discards NaN, so the variance and the flow branch heal while the range branch waits for its 10 s reset; cleanness is an invariant of histories. `agree_step`: on numbers it is the model of C48.
