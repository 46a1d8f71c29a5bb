import Verif.Cov.PredictGen
import Verif.Cov.Bookkeep
import Verif.Utils.Model

/-!
# `predictCovariance` — EKF/covariance.cpp:101-857, from the generated equations to the stored covariance

Exact arithmetic; `SquareMatrix24f nextP;` is zero-initialised by the external matrix library.
-/

namespace Ecl.Cov

section
variable {K : Type*} [Field K] [LinearOrder K] [IsStrictOrderedRing K]

/-- inputs of the covariance prediction besides the covariance -/
structure PredCfg (K : Type*) where
  x : PredIn K
  /-- `process_noise`, EKF/covariance.cpp:208-225 -/
  noise : Fin N → K
  inhibit : Fin 3 → Bool
  /-- `_prev_dvel_bias_var` -/
  prevVar : Fin 3 → K
  mag3D : Bool
  wind : Bool

/-- compensation accumulators `_delta_angle_bias_var_accum`, `_delta_vel_bias_var_accum` -/
structure Accum (K : Type*) where
  ang : Fin 3 → K
  vel : Fin 3 → K

/-- assignments to one column of the upper triangle -/
def writeCol (c : ℕ) (f : ℕ → K) (M : Mat K) : Mat K := fun i j => if j.val = c ∧ i.val ≤ c then f i.val else M i j

/-- `nextP(i,i) = kahanSummation(nextP(i,i), process_noise(i), accum)` (exact arithmetic) -/
def addKahan (c : ℕ) (noise acc : K) (M : Mat K) : Mat K := fun i j =>
  if i.val = c ∧ j.val = c then (Utils.kahanSummation id (M i j) noise acc).1 else M i j

/-- EKF/covariance.cpp:457-600: columns 0 to 12 and compensated process noise on 10 to 12 -/
def nextKin (c : PredCfg K) (acc : Accum K) (P : Mat K) : Mat K :=
  let M := (List.range 13).foldl (fun M j => writeCol j (fun i => nxAll P c.x i j) M) (fun _ _ => 0)
  addKahan 12 (c.noise 12) (acc.ang 2) (addKahan 11 (c.noise 11) (acc.ang 1) (addKahan 10 (c.noise 10) (acc.ang 0) M))

/-- EKF/covariance.cpp:602-684: one accelerometer bias axis -/
def nextAcc (c : PredCfg K) (acc : Accum K) (P : Mat K) (M : Mat K) (a : Fin 3) : Mat K :=
  if !c.inhibit a then
    addKahan (13 + a.val) (c.noise (accIdx a)) (acc.vel a)
      (writeCol (13 + a.val) (fun i => nxAll P c.x i (13 + a.val)) M)
  else uncorrSet (13 + a.val) 1 (fun _ => c.prevVar a) M

/-- `nextP(i,i) += process_noise(i)` -/
def addNoise (lo hi : ℕ) (noise : Fin N → K) (M : Mat K) : Mat K := fun i j =>
  if i = j ∧ lo ≤ i.val ∧ i.val ≤ hi then M i j + noise i else M i j

/-- EKF/covariance.cpp:686-769 -/
def nextMag (c : PredCfg K) (P M : Mat K) : Mat K :=
  if c.mag3D then
    addNoise 16 21 c.noise ([16, 17, 18, 19, 20, 21].foldl (fun M j => writeCol j (fun i => nxAll P c.x i j) M) M)
  else M

/-- EKF/covariance.cpp:771-827 -/
def nextWind (c : PredCfg K) (P M : Mat K) : Mat K :=
  if c.wind then
    addNoise 22 23 c.noise ([22, 23].foldl (fun M j => writeCol j (fun i => nxAll P c.x i j) M) M)
  else M

/-- EKF/covariance.cpp:829-839: growth of the horizontal position covariance stopped -/
def stopGrowth (P M : Mat K) : Mat K :=
  if P 7 7 + P 8 8 > 10000 then fun i j => if (7 ≤ i.val ∧ i.val ≤ 8) ∨ (7 ≤ j.val ∧ j.val ≤ 8) then P i j else M i j
  else M

/-- EKF/covariance.cpp:841-851: upper triangle and diagonal of `nextP` become the covariance -/
def mirror (M : Mat K) : Mat K := fun i j => if i ≤ j then M i j else M j i

/-- the covariance before `fixCovarianceErrors(false)` -/
def predictRaw (c : PredCfg K) (acc : Accum K) (P : Mat K) : Mat K :=
  mirror (stopGrowth P (nextWind c P (nextMag c P ([0, 1, 2].foldl (nextAcc c acc P) (nextKin c acc P)))))

/-- the accumulators after the step -/
def predictAccum (c : PredCfg K) (acc : Accum K) (P : Mat K) : Accum K where
  ang := fun a => (Utils.kahanSummation id (nxAll P c.x (10 + a.val) (10 + a.val))
    (c.noise ⟨10 + a.val, by show 10 + a.val < 24; omega⟩) (acc.ang a)).2
  vel := fun a => if c.inhibit a then 0
    else (Utils.kahanSummation id (nxAll P c.x (13 + a.val) (13 + a.val)) (c.noise (accIdx a)) (acc.vel a)).2

/-- `predictCovariance`, equations part: EKF/covariance.cpp:262-857 -/
def predictCov (c : PredCfg K) (fx : FixIn K) (acc : Accum K) (timeCheck : UInt64) (flag : Bool) (P : Mat K) :
    Mat K × UInt64 × Bool :=
  fixCovarianceErrors fx false timeCheck flag (predictRaw c acc P)

/-- everything `predictCovariance` reads -/
structure CovIn (K : Type*) where
  inh : InhibitIn K
  nz : NoiseIn K
  /-- `_state.quat_nominal` -/
  quat : Quat K
  /-- `_imu_sample_delayed.delta_ang`, `delta_vel` -/
  dAng : Fin 3 → K
  dVel : Fin 3 → K
  /-- `_state.delta_ang_bias`, `delta_vel_bias` -/
  dAngBias : Fin 3 → K
  dVelBias : Fin 3 → K
  dtEkfAvg : K
  now : UInt64
  badAccBias : Bool

/-- everything `predictCovariance` updates -/
structure CovSt (K : Type*) where
  ist : InhibitState K
  /-- `_height_rate_lpf` -/
  heightRate : K
  acc : Accum K
  /-- `_time_acc_bias_check` -/
  timeCheck : UInt64
  badAccBias : Bool
  badAccClipping : Bool

/-- the scalars of the equations, EKF/covariance.cpp:104-126, 227-260 (`dt = FILTER_UPDATE_PERIOD_S`) -/
def CovIn.predIn (x : CovIn K) : PredIn K :=
  { q0 := x.quat.w, q1 := x.quat.x, q2 := x.quat.y, q3 := x.quat.z
    dax := x.dAng 0, day := x.dAng 1, daz := x.dAng 2, dvx := x.dVel 0, dvy := x.dVel 1, dvz := x.dVel 2
    dax_b := x.dAngBias 0, day_b := x.dAngBias 1, daz_b := x.dAngBias 2
    dvx_b := x.dVelBias 0, dvy_b := x.dVelBias 1, dvz_b := x.dVelBias 2
    daxVar := (imuNoise x.nz).1, dayVar := (imuNoise x.nz).1, dazVar := (imuNoise x.nz).1
    dvxVar := (imuNoise x.nz).2.1 0, dvyVar := (imuNoise x.nz).2.1 1, dvzVar := (imuNoise x.nz).2.1 2
    dt := filterPeriod }

/-- `predictCovariance`, EKF/covariance.cpp:101-857 -/
def predictCovariance (x : CovIn K) (s : CovSt K) : CovSt K :=
  let ist := inhibitUpdate x.inh s.ist
  let h := heightRateLpf s.heightRate x.nz.velD
  let c : PredCfg K :=
    { x := x.predIn, noise := processNoise x.nz h ist.P, inhibit := ist.inhibit, prevVar := ist.prevVar
      mag3D := x.nz.mag3D, wind := x.nz.wind }
  let fx : FixIn K :=
    { inhibit := ist.inhibit, mag3D := x.nz.mag3D, wind := x.nz.wind, dtEkfAvg := x.dtEkfAvg, now := x.now
      badAccBias := x.badAccBias }
  let r := predictCov c fx s.acc s.timeCheck s.badAccBias ist.P
  { ist := { ist with P := r.1 }, heightRate := h, acc := predictAccum c s.acc ist.P, timeCheck := r.2.1
    badAccBias := r.2.2, badAccClipping := (imuNoise x.nz).2.2 }

end

end Ecl.Cov
