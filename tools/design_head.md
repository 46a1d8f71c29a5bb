# PX4/ecl in Lean 4 — design

## 1. Approach
* The code of `/repo` is modelled function by function as total Lean functions in `lean/Verif/<Area>/`; every definition cites the file
  and lines it models and states its simplifications. Properties (`properties.jsonl`) are theorems over those functions; a small
  specification (`Spec.*` definitions) states the intended meaning without using the model's helpers.
* Properties that must hold for every history are proved by induction over lists of operations of unbounded length, with inductive
  invariants or refinement to an abstract object. Numerical properties are proved for all real (or ordered field) inputs. Generated
  equations are compared with matrix specifications and derivatives (`HasDerivAt`).
* A property that the code does not satisfy is recorded as such: a theorem proves the negation (a witness, or a statement for every
  state meeting stated hypotheses) next to the part that does hold. Section 5 lists these findings.
* Each theorem has an `example` with a concrete non-trivial case of its hypotheses in the same file.
* Theorems were tested against mutated models (`seeded/LOG.jsonl`, scripts `tools/mutate.py`, `tools/mutlog.py`).

## 2. Trusted base
* Lean 4.33.0 kernel. Axioms used by the theorems: only `propext`, `Classical.choice`, `Quot.sound` (Mathlib's standard set). No axiom is
  declared, no proof is left open, no compiled-code evaluation is used (`decide +kernel` is evaluated by the kernel).
* The reading of the C++ text into the model: by hand, or by the scripts in `tools/` for the generated equations (`cgen.py`,
  `gen_cov.py`, `gen_fusion.py`, `gen_magiv.py`, `gen_tables.py`); `gen_aid_frame.py` only generates frame lemmas, which the kernel checks.
* Arithmetic: C `float`/`double` computations are read as exact real arithmetic, except where rounding or special values are the subject:
  `Basic/F32` (round to nearest even, 24 bits) for C15, NaN as a separate value in `Fusion/VelPosNaN` (C36), `Fusion/FlowAdmit` (C121) and
  `Control/VertAccel` (C118), and the modules `Fp/` (rounding of every operation, infinities and NaN: covariance conditioning C141, attitude C142). Float literals are read as the decimal they print. Overflow, infinities and rounding elsewhere are not modelled.
  64-bit time stamps are `UInt64` with wrap-around; 8-, 16- and 32-bit counters wrap where the code relies on it.
* The external `matrix` library (not in /repo): vector and matrix algebra as in mathematics; `uncorrelateCovarianceSetVariance` zeroes rows and
  columns and sets the diagonal; `makeRowColSymmetric` averages mirrored entries; constructors zero-initialise; `longerThan(v)` compares
  squared norms; quaternion ↔ rotation matrix conversion (Shepperd) is modelled and proved in `Ekf/QuatLib`; axis–angle conversion in
  `ImuDownSampler`.
* C++ level: no concurrency in the code base; memory safety is modelled where indices are computed (ring buffer, tables), object lifetime is not.

## 3. What is modelled and what is not
Modelled (by area): `RingBuffer.h`; `AlphaFilter.hpp`; `imu_down_sampler`; `sensor_range_finder`; `estimator_interface.{cpp,h}` (ports,
down-sampling, sizes, time shifts, vibration, at-rest, drag, aiding counts); `utils.cpp`, `mathlib.h`; `ekf.cpp` (initialisation, `update`/`reset` call histories, prediction, tilt
alignment, output predictor, vertical output); `ekf_helper.cpp` (resets, alignment, limits, status words, accuracies, Kahan, yaw resets, dead
reckoning, emergency yaw reset, covariance helpers); `covariance.cpp` (all); `mag_fusion.cpp`, `airspeed_fusion.cpp`, `sideslip_fusion.cpp`,
`drag_fusion.cpp`, `optflow_fusion.cpp`, `gps_yaw_fusion.cpp`, `vel_pos_fusion.cpp` (all); `control.cpp`, `mag_control.cpp` (all fusion
mode control: height, magnetometer, GPS, vision, flow, airspeed, sideslip, drag, synthetic, auxiliary velocity, vertical accelerometer fault);
`gps_checks.cpp`; `terrain_estimator.cpp`; `EKFGSF_yaw.cpp`; `airdata/WindEstimator`; `geo/geo.cpp`; `geo_lookup`.

Not modelled: console output; trivial getters that copy one member; the derivation scripts and comparison programs under `EKF/python`
(not part of the library); the tests; the dynamic memory allocator (allocation success is an input); float rounding as said above.
The control code is modelled in several views (flags and timers in `Aid`, height in `Control`, numerical effect in `Meas`, `Fusion`, `Yaw`):
each view takes the quantities computed by the others as inputs. `Whole` composes every function that writes the state vector or the covariance into one
transition system with any order of calls and any arguments (C137, C138); the control logic is not composed with it (its orders of calls are a subset).
