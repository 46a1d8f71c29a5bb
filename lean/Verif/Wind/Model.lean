import Verif.Basic.Num
import Verif.Basic.Rot
import Verif.Basic.RealTrig

/-!
# WindEstimator — airdata/WindEstimator.{hpp,cpp}

Floats are real numbers.  Where the code would divide zero by zero (zero relative airspeed, zero innovation variance) the model does not
compute a number: the IEEE result is not-a-number in every state, which the code's own finite check turns into "not initialised"
(WindEstimator.cpp:328-331); the model goes straight to that outcome and raises the ghost flag `nan`, which says that the stored
numbers are then unspecified.  Overflow to infinity and non-finite inputs are not modelled.
-/

namespace Ecl.Wind

/-- three-vector -/
abbrev V3' := Fin 3 → ℝ
/-- 3×3 matrix -/
abbrev M3' := Fin 3 → Fin 3 → ℝ

/-- Tuning members of the estimator with their defaults, WindEstimator.hpp:118-123,135. -/
structure Cfg where
  windPVar : ℝ
  tasPVar : ℝ
  tasVar : ℝ
  betaVar : ℝ
  tasGate : UInt8
  betaGate : UInt8
  enforced : ℝ

/-- The members of `WindEstimator`, WindEstimator.hpp:107-135: states (north wind, east wind, airspeed scale), covariance, innovations, flags
and time stamps (µs).  `nan` is a ghost flag, see the file header. -/
structure St where
  x : V3'
  P : M3'
  tasInnov : ℝ
  tasInnovVar : ℝ
  betaInnov : ℝ
  betaInnovVar : ℝ
  init : Bool
  c : Cfg
  tTas : UInt64
  tBeta : UInt64
  tUpd : UInt64
  rejBeta : UInt64
  rejTas : UInt64
  reset : Bool
  nan : Bool

/-- A freshly constructed estimator, WindEstimator.hpp:107-135 (the matrix library zero-initialises `_state` and `_P`). -/
noncomputable def fresh : St where
  x := fun _ => 0
  P := fun _ _ => 0
  tasInnov := 0
  tasInnovVar := 0
  betaInnov := 0
  betaInnovVar := 0
  init := false
  c := ⟨0.1, 0.0001, 1.4, 0.5, 3, 1, -1⟩
  tTas := 0
  tBeta := 0
  tUpd := 0
  rejBeta := 0
  rejTas := 0
  reset := false
  nan := false

/-- The matrix `L` of `initialise`, WindEstimator.cpp:61-76. -/
noncomputable def initL (v : V3') (tas : ℝ) : M3' :=
  let L0 := v 1 * v 1
  let L1 := v 0 * v 0
  let L2 := L0 + L1
  let L3 := tas / (L2 * √L2)
  let L4 := L3 * v 1 * v 0 + 1
  let L5 := 1 / √L2
  let L6 := -L5 * tas
  ![![L4, L0 * L3 + L6, 0], ![L1 * L3 + L6, L4, 0], ![0, 0, 1]]

/-- matrix product of the external library -/
def mmul (A B : M3') : M3' := fun i j => A i 0 * B 0 j + A i 1 * B 1 j + A i 2 * B 2 j
/-- `transpose()` of the external library -/
def transp (A : M3') : M3' := fun i j => A j i

/-- Initial covariance, WindEstimator.cpp:78-85. -/
noncomputable def initP (v : V3') (var0 var1 tas : ℝ) : M3' :=
  mmul (mmul (initL v tas) ![![var0, 0, 0], ![0, var1, 0], ![0, 0, 0.0001]]) (transp (initL v tas))

/-- `_initialised = initialise(velI, velIvar, tas_meas)`, WindEstimator.cpp:41-94 with the assignment made by every caller
(:147, :197, :219, :291).  `atan2f` is the real-valued two-argument arctangent. -/
noncomputable def initialise (v : V3') (var0 var1 tas : ℝ) (st : St) : St :=
  if √(v 0 * v 0 + v 1 * v 1) < 3 then
    { st with init := false }
  else
    let heading := atan2 (v 1) (v 0)
    { st with
      x := ![v 0 - tas * Real.cos heading, v 1 - tas * Real.sin heading, 1]
      P := initP v var0 var1 tas
      rejTas := 0
      rejBeta := 0
      reset := true
      init := true
      nan := false }

/-- Covariance prediction over `dt` seconds, WindEstimator.cpp:118-136. -/
def predictP (P : M3') (dt qw qk : ℝ) : M3' :=
  let SPP0 := dt * dt
  let SPP1 := SPP0 * qw
  let SPP2 := SPP1 + P 0 1
  ![![SPP1 + P 0 0, SPP2, P 0 2], ![SPP2, SPP1 + P 1 1, P 1 2], ![P 0 2, P 1 2, SPP0 * qk + P 2 2]]

/-- seconds between two `uint64_t` microsecond stamps (wrapping subtraction), WindEstimator.cpp:115; `1e-6f` as the real 10⁻⁶ -/
noncomputable def dtSec (now last : UInt64) : ℝ := ((now - last).toNat : ℝ) * (1 / 1000000)

/-- `update(time_now)`, WindEstimator.cpp:96-137. -/
noncomputable def update (now : UInt64) (st : St) : St :=
  if st.init = false then st
  else
    let st := { st with reset := false }
    if now - st.tUpd < 1000000 ∨ st.tUpd = 0 then
      if st.tUpd = 0 then { st with tUpd := now } else st
    else
      { st with
        tUpd := now
        P := predictP st.P (dtSec now st.tUpd) st.c.windPVar st.c.tasPVar }

/-- row vector times matrix times column vector, `(H * _P * H.transpose())(0,0)` -/
def hph (P : M3') (H : V3') : ℝ :=
  (H 0 * P 0 0 + H 1 * P 1 0 + H 2 * P 2 0) * H 0 + (H 0 * P 0 1 + H 1 * P 1 1 + H 2 * P 2 1) * H 1 +
    (H 0 * P 0 2 + H 1 * P 1 2 + H 2 * P 2 2) * H 2

/-- `K = _P * H.transpose(); K /= S`, WindEstimator.cpp:174-178, :260-264 -/
noncomputable def gain (P : M3') (H : V3') (S : ℝ) : V3' := fun i => (P i 0 * H 0 + P i 1 * H 1 + P i 2 * H 2) / S

/-- `_P - K * H * _P`, WindEstimator.cpp:210, :304 -/
def shrink (P : M3') (K H : V3') : M3' := fun i j => P i j - mmul (fun a b => K a * H b) P i j

/-- One pass of the diagonal loop, WindEstimator.cpp:312-326: `none` when the variance is negative. -/
noncomputable def diagStep (P : M3') (i : Fin 3) : Option M3' :=
  if P i i < 0 then none
  else
    let cap : ℝ := if i.val < 2 then 25 else 0.1
    some (fun a b => if a = i ∧ b = i then (if P i i > cap then cap else P i i) else P a b)

/-- `run_sanity_checks()`, WindEstimator.cpp:309-350.  The finite check (:328-331) never fires on real numbers. -/
noncomputable def sanity (st : St) : St :=
  match diagStep st.P 0 with
  | none => { st with init := false }
  | some P0 =>
    match diagStep P0 1 with
    | none => { st with
        P := P0
        init := false }
    | some P1 =>
      match diagStep P1 2 with
      | none => { st with
          P := P1
          init := false }
      | some P2 =>
        { st with
          x := ![st.x 0, st.x 1, if st.c.enforced < 0 then mmax 0 (st.x 2) else st.c.enforced]
          P := fun i j => if i = j then P2 i j else if j < i then (P2 i j + P2 j i) / 2 else (P2 j i + P2 i j) / 2 }

/-- `check_if_meas_is_rejected(...)`, WindEstimator.cpp:352-366: new rejection time, "rejected", "re-initialise". -/
noncomputable def checkRejected (now : UInt64) (innov innovVar : ℝ) (gate : UInt8) (tRej : UInt64) : UInt64 × Bool × Bool :=
  let t := if innov * innov > (gate.toNat : ℝ) * gate.toNat * innovVar then (if tRej = 0 then now else tRej) else 0
  (t, decide (t ≠ 0), decide (now - t > 5000000 ∧ t ≠ 0))

/-- Application of an accepted measurement: WindEstimator.cpp:204-212, :298-306.  A zero innovation variance divides by zero. -/
noncomputable def apply (innov S : ℝ) (H : V3') (st : St) : St :=
  if S = 0 then { st with
    init := false
    nan := true }
  else
    let K := gain st.P H S
    sanity { st with
      x := ![st.x 0 + innov * K 0, st.x 1 + innov * K 1, st.x 2 + innov * K 2]
      P := shrink st.P K H }

/-- Relative airspeed `HH0`, WindEstimator.cpp:166. -/
noncomputable def relSpeed (v x : V3') : ℝ := √(v 2 * v 2 + (v 1 - x 1) * (v 1 - x 1) + (v 0 - x 0) * (v 0 - x 0))

/-- `H_tas`, WindEstimator.cpp:167-172. -/
noncomputable def hTas (v x : V3') : V3' :=
  ![x 2 / relSpeed v x * (-v 0 + x 0), x 2 / relSpeed v x * (-v 1 + x 1), relSpeed v x]

/-- `airspeed_pred`, WindEstimator.cpp:180-181. -/
noncomputable def tasPred (v x : V3') : ℝ :=
  x 2 * √((v 0 - x 0) * (v 0 - x 0) + (v 1 - x 1) * (v 1 - x 1) + v 2 * v 2)

/-- `fuse_airspeed(...)` once the 10 Hz limit has been passed, WindEstimator.cpp:156-212. -/
noncomputable def fuseTasCore (now : UInt64) (tas : ℝ) (v : V3') (st : St) : St :=
  let st := { st with tTas := now }
  if relSpeed v st.x = 0 then
    { st with
      tasInnov := tas
      rejTas := 0
      init := false
      nan := true }
  else
    let H := hTas v st.x
    let S := hph st.P H + st.c.tasVar
    let innov := tas - tasPred v st.x
    let ch := checkRejected now innov S st.c.tasGate st.rejTas
    let st := { st with
      tasInnov := innov
      tasInnovVar := S
      rejTas := ch.1 }
    let reinit := ch.2.2 || decide (S < 0)
    if ch.2.1 || reinit then
      if reinit then initialise v 0.1 0.1 tas st else st
    else apply innov S H st

/-- `fuse_airspeed(time_now, true_airspeed, velI, velIvar)`, WindEstimator.cpp:139-213. -/
noncomputable def fuseTas (now : UInt64) (tas : ℝ) (v : V3') (var0 var1 : ℝ) (st : St) : St :=
  if st.init = false then initialise v (mmax 0.01 var0) (mmax 0.01 var1) tas st
  else if now - st.tTas < 100000 then st
  else fuseTasCore now tas v st

/-- `H_beta`, WindEstimator.cpp:234-257. -/
noncomputable def hBeta (v x : V3') (q : Quat ℝ) : V3' :=
  let HB0 := 2 * q.w
  let HB1 := HB0 * q.z
  let HB2 := 2 * q.x
  let HB3 := HB2 * q.y
  let HB4 := v 1 - x 1
  let HB5 := HB1 + HB3
  let HB6 := v 0 - x 0
  let HB7 := q.w * q.w
  let HB8 := q.z * q.z
  let HB9 := HB7 - HB8
  let HB10 := q.x * q.x
  let HB11 := q.y * q.y
  let HB12 := HB10 - HB11
  let HB13 := HB12 + HB9
  let HB14 := HB13 * HB6 + HB4 * HB5 + v 2 * (-HB0 * q.y + HB2 * q.z)
  let HB15 := 1 / HB14
  let HB16 := (HB4 * (-HB10 + HB11 + HB9) + HB6 * (-HB1 + HB3) + v 2 * (HB0 * q.x + 2 * q.y * q.z)) / (HB14 * HB14)
  ![HB13 * HB16 + HB15 * (HB1 - HB3), HB15 * (HB12 - HB7 + HB8) + HB16 * HB5, 0]

/-- `rel_wind`, WindEstimator.cpp:267-269: the air-relative velocity in body axes. -/
noncomputable def relWind (v x : V3') (q : Quat ℝ) (a : Fin 3) : ℝ :=
  q.dcm 0 a * (v 0 - x 0) + q.dcm 1 a * (v 1 - x 1) + q.dcm 2 a * v 2

/-- `velI.length()` of the external library -/
noncomputable def len3 (v : V3') : ℝ := √(v 0 * v 0 + v 1 * v 1 + v 2 * v 2)

/-- `fuse_beta(...)` once the 10 Hz limit has been passed, WindEstimator.cpp:228-306.  A zero forward airspeed makes `H` and `S` infinite, but
then the function has returned before using them (:271). -/
noncomputable def fuseBetaCore (now : UInt64) (v : V3') (q : Quat ℝ) (st : St) : St :=
  let st := { st with tBeta := now }
  let H := hBeta v st.x q
  let S := hph st.P H + st.c.betaVar
  if |relWind v st.x q 0| < 0.1 then st
  else
    let innov := 0 - relWind v st.x q 1 / relWind v st.x q 0
    let ch := checkRejected now innov S st.c.betaGate st.rejBeta
    let st := { st with
      betaInnov := innov
      betaInnovVar := S
      rejBeta := ch.1 }
    let reinit := ch.2.2 || decide (S < 0)
    if ch.2.1 || reinit then
      if reinit then initialise v 0.1 0.1 (len3 v) st else st
    else apply innov S H st

/-- `fuse_beta(time_now, velI, q_att)`, WindEstimator.cpp:215-307. -/
noncomputable def fuseBeta (now : UInt64) (v : V3') (q : Quat ℝ) (st : St) : St :=
  if st.init = false then initialise v 0.1 0.1 (len3 v) st
  else if now - st.tBeta < 100000 then st
  else fuseBetaCore now v q st

/-- The public calls that change the estimator, WindEstimator.hpp:58-62 and the setters :88-97. -/
inductive Call where
  | update (now : UInt64)
  | airspeed (now : UInt64) (tas : ℝ) (v : V3') (var0 var1 : ℝ)
  | beta (now : UInt64) (v : V3') (q : Quat ℝ)
  | setWindPNoise (s : ℝ)
  | setTasScalePNoise (s : ℝ)
  | setTasNoise (s : ℝ)
  | setBetaNoise (s : ℝ)
  | setTasGate (g : UInt8)
  | setBetaGate (g : UInt8)
  | enforceScale (s : ℝ)

/-- Effect of one call; the setters square their argument, WindEstimator.hpp:88-97. -/
noncomputable def step (st : St) : Call → St
  | .update t => update t st
  | .airspeed t tas v a b => fuseTas t tas v a b st
  | .beta t v q => fuseBeta t v q st
  | .setWindPNoise s => { st with c := { st.c with windPVar := s * s } }
  | .setTasScalePNoise s => { st with c := { st.c with tasPVar := s * s } }
  | .setTasNoise s => { st with c := { st.c with tasVar := s * s } }
  | .setBetaNoise s => { st with c := { st.c with betaVar := s * s } }
  | .setTasGate g => { st with c := { st.c with tasGate := g } }
  | .setBetaGate g => { st with c := { st.c with betaGate := g } }
  | .enforceScale s => { st with c := { st.c with enforced := s } }

/-- a history of calls on a fresh estimator -/
noncomputable def run (l : List Call) : St := l.foldl step fresh

end Ecl.Wind
