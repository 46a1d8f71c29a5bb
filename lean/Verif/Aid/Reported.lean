import Verif.Aid.Recovery

/-!
# What the innovation getters report (C167, C168)

The arrays behind `getGpsVelPosInnov`, `getEvVelPosInnov`, `getAuxVelInnov` and their variance and ratio variants (EKF/ekf_helper.cpp:606-669, EKF/ekf.h:87), and the
velocity observation remembered for the yaw failure test (EKF/ekf.h:401-402): every place that writes them, in the order of one filter step.
-/

namespace Ecl.Aid

variable {K : Type*} [Field K] [LinearOrder K]

/-- horizontal part of a channel: two innovations, two innovation variances, one test ratio, EKF/ekf.h:409-428, EKF/estimator_interface.h:320-324 -/
structure Hor (K : Type*) where
  i0 : K
  i1 : K
  v0 : K
  v1 : K
  ratio : K
  deriving DecidableEq

/-- vertical part of a channel -/
structure Ver (K : Type*) where
  i : K
  v : K
  ratio : K
  deriving DecidableEq

/-- `setZero`, EKF/ekf_helper.cpp:1438-1452, 1513-1532 -/
def Hor.zero : Hor K := { i0 := 0, i1 := 0, v0 := 0, v1 := 0, ratio := 0 }
/-- `setZero`, EKF/ekf_helper.cpp:1438-1452, 1513-1532 -/
def Ver.zero : Ver K := { i := 0, v := 0, ratio := 0 }

/-- what a horizontal fusion reads: innovations, state variances, observation variances, gate -/
structure HorObs (K : Type*) where
  i0 : K
  i1 : K
  p0 : K
  p1 : K
  r0 : K
  r1 : K
  gate : K

/-- what a vertical fusion reads -/
structure VerObs (K : Type*) where
  i : K
  p : K
  r : K
  gate : K

/-- assignment of the innovations before a fusion, EKF/control.cpp:258-259, 280-281, 310, 710-711, 1323, 1346 -/
def Hor.innov (h : Hor K) (o : HorObs K) : Hor K := { h with i0 := o.i0, i1 := o.i1 }
/-- variances and test ratio, `fuseHorizontalVelocity`, `fuseHorizontalPosition`, EKF/vel_pos_fusion.cpp:50-53, 114-117 -/
def Hor.fuse (h : Hor K) (o : HorObs K) : Hor K :=
  let v0 := o.p0 + o.r0
  let v1 := o.p1 + o.r1
  { h with
    v0 := v0
    v1 := v1
    ratio := max (h.i0 ^ 2 / (o.gate ^ 2 * v0)) (h.i1 ^ 2 / (o.gate ^ 2 * v1)) }
/-- innovation, variance and test ratio, `fuseVerticalVelocity`, `fuseVerticalPosition`, EKF/vel_pos_fusion.cpp:82-83, 150-151; EKF/control.cpp:310, 710, 1134,
1161 -/
def VerObs.row (o : VerObs K) : Ver K := { i := o.i, v := o.p + o.r, ratio := o.i ^ 2 / (o.gate ^ 2 * (o.p + o.r)) }

/-- everything the getters return, and `_last_vel_obs`, `_last_vel_obs_var` (horizontal components) -/
structure Rep (K : Type*) where
  gpsVel : Hor K
  gpsVelZ : Ver K
  gpsPos : Hor K
  gpsPosZ : Ver K
  evVel : Hor K
  evVelZ : Ver K
  evPos : Hor K
  evPosZ : Ver K
  aux : Hor K
  lastVel : K × K
  lastVar : K × K
  deriving DecidableEq

/-- the state after construction: all matrices zero (default constructor of `matrix::Matrix`); `Ekf::reset` (EKF/ekf.cpp:53-99) does not touch any of them -/
def Rep.init : Rep K :=
  { gpsVel := .zero, gpsVelZ := .zero, gpsPos := .zero, gpsPosZ := .zero, evVel := .zero, evVelZ := .zero, evPos := .zero, evPosZ := .zero, aux := .zero,
    lastVel := (0, 0), lastVar := (0, 0) }

/-- the height fusion of the step, as far as these channels are concerned, EKF/control.cpp:1130-1168 -/
inductive Hgt (K : Type*)
  | other
  | gps (o : VerObs K)
  | ev (o : VerObs K)

/-- the numbers of one step; each is used only if the fusion it belongs to takes place -/
structure News (K : Type*) where
  gpsVel : HorObs K
  gpsVelZ : VerObs K
  gpsPos : HorObs K
  hgt : Hgt K
  evPos : HorObs K
  evVel : HorObs K
  evVelZ : VerObs K
  aux : HorObs K
  fake : HorObs K
  /-- the velocity observations of the three sources -/
  gpsObs : K × K
  evObs : K × K
  auxObs : K × K

/-- `stopGpsPosFusion`, `stopGpsVelFusion`, EKF/ekf_helper.cpp:1438-1452 -/
def Rep.stopGps (r : Rep K) : Rep K := { r with gpsVel := .zero, gpsVelZ := .zero, gpsPos := .zero, gpsPosZ := .zero }
/-- `stopEvPosFusion`, `stopEvVelFusion`, EKF/ekf_helper.cpp:1513-1527 -/
def Rep.stopEv (r : Rep K) : Rep K := { r with evVel := .zero, evVelZ := .zero, evPos := .zero, evPosZ := .zero }

/-- the stop on failing checks, EKF/control.cpp:554-563, 1432-1436 of EKF/ekf_helper.cpp -/
def repFailing (x : In) (s : St) (r : Rep K) : Rep K :=
  if s.gps && isTimedOut x.now x.lastPass 5000000 && (s.aid x).isOther s.gps then r.stopGps else r

/-- GPS velocity and position, EKF/control.cpp:705-720 -/
def repGpsFuse (n : News K) (s : St) (r : Rep K) : Rep K :=
  if s.gps then
    { r with
      gpsVel := (r.gpsVel.innov n.gpsVel).fuse n.gpsVel
      gpsVelZ := n.gpsVelZ.row
      gpsPos := (r.gpsPos.innov n.gpsPos).fuse n.gpsPos
      lastVel := n.gpsObs
      lastVar := (n.gpsVel.r0, n.gpsVel.r1) }
  else r

/-- `controlGpsFusion`, EKF/control.cpp:508-735, seen from the reported values; `s` is the state at its start -/
def repGps (x : In) (n : News K) (s : St) (r : Rep K) : Rep K :=
  if x.gpsReady then
    let s1 := gpsStart x (controlGpsYaw x s)
    let r := repFailing x s1 r
    repGpsFuse n (gpsResets x (gsfAlign x (gpsFailing x s1))) r
  else if s.gps && elapsed x.tDel x.tGps 10000000 then r.stopGps
  else if s.gps && elapsed x.tDel x.tGps 1000000 && (s.aid x).isOther s.gps then r.stopGps
  else r

/-- `controlHeightFusion`, EKF/control.cpp:1130-1168 -/
def repHgt (n : News K) (r : Rep K) : Rep K :=
  match n.hgt with
  | .other => r
  | .gps o => { r with gpsPosZ := o.row }
  | .ev o => { r with evPosZ := o.row }

/-- vision position, EKF/control.cpp:242-301: the first sample used as odometry leaves the innovation as it is -/
def repEvPos (x : In) (n : News K) (s : St) (r : Rep K) : Rep K :=
  if s.evPos then
    if x.useGps then
      if !s.hposPrev then { r with evPos := r.evPos.fuse n.evPos } else { r with evPos := (r.evPos.innov n.evPos).fuse n.evPos }
    else { r with evPos := (r.evPos.innov n.evPos).fuse n.evPos }
  else r

/-- vision velocity, EKF/control.cpp:309-326 -/
def repEvVel (n : News K) (s : St) (r : Rep K) : Rep K :=
  if s.evVel then
    { r with
      evVel := (r.evVel.innov n.evVel).fuse n.evVel
      evVelZ := n.evVelZ.row
      lastVel := n.evObs
      lastVar := (n.evVel.r0, n.evVel.r1) }
  else r

/-- `controlExternalVisionFusion`, EKF/control.cpp:188-340 -/
def repEv (x : In) (n : News K) (s : St) (r : Rep K) : Rep K :=
  if x.evReady then
    let s1 := evYawStart x (evStart x s)
    repEvVel n (evPosUse x s1) (repEvPos x n s1 r)
  else if (s.evPos || s.evVel || s.evYaw) && isTimedOut x.now x.tEv x.resetTimeout then r.stopEv
  else r

/-- `controlAuxVelFusion`, EKF/control.cpp:1345-1350: the remembered variance is the innovation variance of the previous auxiliary sample -/
def repAux (x : In) (n : News K) (s : St) (r : Rep K) : Rep K :=
  if x.auxReady && (s.aid x).active then
    { r with
      aux := (r.aux.innov n.aux).fuse n.aux
      lastVel := n.auxObs
      lastVar := (r.aux.v0, r.aux.v1) }
  else r

/-- `controlFakePosFusion`, EKF/control.cpp:1282-1331 -/
def repFake (x : In) (n : News K) (s : St) (r : Rep K) : Rep K :=
  if !(s.aid x).active && !(s.fuseAspd && x.fuseBeta) then
    if isTimedOut x.now s.tFake 200000 then { r with gpsPos := (r.gpsPos.innov n.fake).fuse n.fake } else r
  else r

/-- the reported values after one filter step, EKF/control.cpp:46-186; the same order as `Aid.step` -/
def repStep (x : In) (n : News K) (s : St) (r : Rep K) : Rep K :=
  let s := flowArrival x (tiltAlign x (requests x { s with log := [], evts := [] }))
  let s := controlFlow x (controlMag x s)
  let r := repHgt n (repGps x n s r)
  let s := controlDrag x (controlBeta x (controlAir x (controlGps x s)))
  let r := repEv x n s r
  let s := controlEv x s
  let r := repAux x n s r
  repFake x n (controlAux x s) r

/-- a history: reported values along `Aid.run` -/
def repRun : St → Rep K → List (In × News K) → Rep K
  | _, r, [] => r
  | s, r, (x, n) :: xs => repRun (step x s) (repStep x n s r) xs

/-! ### Specification -/

/-- the entries after a horizontal measurement was compared with the estimate: innovations, innovation variances, and the larger of the two squared innovations
relative to gate and variance -/
def Spec.horRow (o : HorObs K) : Hor K :=
  { i0 := o.i0
    i1 := o.i1
    v0 := o.p0 + o.r0
    v1 := o.p1 + o.r1
    ratio := max (o.i0 ^ 2 / (o.gate ^ 2 * (o.p0 + o.r0))) (o.i1 ^ 2 / (o.gate ^ 2 * (o.p1 + o.r1))) }

/-- the entries after a vertical measurement was compared with the estimate -/
def Spec.verRow (o : VerObs K) : Ver K := { i := o.i, v := o.p + o.r, ratio := o.i ^ 2 / (o.gate ^ 2 * (o.p + o.r)) }

theorem fuse_innov (h : Hor K) (o : HorObs K) : (h.innov o).fuse o = Spec.horRow o := rfl
theorem ver_row (o : VerObs K) : o.row = Spec.verRow o := rfl

end Ecl.Aid
