import Verif.Aid.Other

/-! Generated by tools/gen_aid_frame.py: fields left unchanged by each operation. -/

namespace Ecl.Aid

@[simp] theorem act_tilt (s : St) (a : Act) : (s.act a).tilt = s.tilt := rfl
@[simp] theorem evt_tilt (s : St) (e : Evt) : (s.evt e).tilt = s.tilt := rfl
@[simp] theorem act_yawAlign (s : St) (a : Act) : (s.act a).yawAlign = s.yawAlign := rfl
@[simp] theorem evt_yawAlign (s : St) (e : Evt) : (s.evt e).yawAlign = s.yawAlign := rfl
@[simp] theorem act_gps (s : St) (a : Act) : (s.act a).gps = s.gps := rfl
@[simp] theorem evt_gps (s : St) (e : Evt) : (s.evt e).gps = s.gps := rfl
@[simp] theorem act_optFlow (s : St) (a : Act) : (s.act a).optFlow = s.optFlow := rfl
@[simp] theorem evt_optFlow (s : St) (e : Evt) : (s.evt e).optFlow = s.optFlow := rfl
@[simp] theorem act_magHdg (s : St) (a : Act) : (s.act a).magHdg = s.magHdg := rfl
@[simp] theorem evt_magHdg (s : St) (e : Evt) : (s.evt e).magHdg = s.magHdg := rfl
@[simp] theorem act_mag3D (s : St) (a : Act) : (s.act a).mag3D = s.mag3D := rfl
@[simp] theorem evt_mag3D (s : St) (e : Evt) : (s.evt e).mag3D = s.mag3D := rfl
@[simp] theorem act_magDec (s : St) (a : Act) : (s.act a).magDec = s.magDec := rfl
@[simp] theorem evt_magDec (s : St) (e : Evt) : (s.evt e).magDec = s.magDec := rfl
@[simp] theorem act_wind (s : St) (a : Act) : (s.act a).wind = s.wind := rfl
@[simp] theorem evt_wind (s : St) (e : Evt) : (s.evt e).wind = s.wind := rfl
@[simp] theorem act_evPos (s : St) (a : Act) : (s.act a).evPos = s.evPos := rfl
@[simp] theorem evt_evPos (s : St) (e : Evt) : (s.evt e).evPos = s.evPos := rfl
@[simp] theorem act_evVel (s : St) (a : Act) : (s.act a).evVel = s.evVel := rfl
@[simp] theorem evt_evVel (s : St) (e : Evt) : (s.evt e).evVel = s.evVel := rfl
@[simp] theorem act_evYaw (s : St) (a : Act) : (s.act a).evYaw = s.evYaw := rfl
@[simp] theorem evt_evYaw (s : St) (e : Evt) : (s.evt e).evYaw = s.evYaw := rfl
@[simp] theorem act_gpsYaw (s : St) (a : Act) : (s.act a).gpsYaw = s.gpsYaw := rfl
@[simp] theorem evt_gpsYaw (s : St) (e : Evt) : (s.evt e).gpsYaw = s.gpsYaw := rfl
@[simp] theorem act_magDist (s : St) (a : Act) : (s.act a).magDist = s.magDist := rfl
@[simp] theorem evt_magDist (s : St) (e : Evt) : (s.evt e).magDist = s.magDist := rfl
@[simp] theorem act_magFault (s : St) (a : Act) : (s.act a).magFault = s.magFault := rfl
@[simp] theorem evt_magFault (s : St) (e : Evt) : (s.evt e).magFault = s.magFault := rfl
@[simp] theorem act_fuseAspd (s : St) (a : Act) : (s.act a).fuseAspd = s.fuseAspd := rfl
@[simp] theorem evt_fuseAspd (s : St) (e : Evt) : (s.evt e).fuseAspd = s.fuseAspd := rfl
@[simp] theorem act_magAligned (s : St) (a : Act) : (s.act a).magAligned = s.magAligned := rfl
@[simp] theorem evt_magAligned (s : St) (e : Evt) : (s.evt e).magAligned = s.magAligned := rfl
@[simp] theorem act_magYawReq (s : St) (a : Act) : (s.act a).magYawReq = s.magYawReq := rfl
@[simp] theorem evt_magYawReq (s : St) (e : Evt) : (s.evt e).magYawReq = s.magYawReq := rfl
@[simp] theorem act_magInhReq (s : St) (a : Act) : (s.act a).magInhReq = s.magInhReq := rfl
@[simp] theorem evt_magInhReq (s : St) (e : Evt) : (s.evt e).magInhReq = s.magInhReq := rfl
@[simp] theorem act_velposReq (s : St) (a : Act) : (s.act a).velposReq = s.velposReq := rfl
@[simp] theorem evt_velposReq (s : St) (e : Evt) : (s.evt e).velposReq = s.velposReq := rfl
@[simp] theorem act_inhibited (s : St) (a : Act) : (s.act a).inhibited = s.inhibited := rfl
@[simp] theorem evt_inhibited (s : St) (e : Evt) : (s.evt e).inhibited = s.inhibited := rfl
@[simp] theorem act_nonMagPrev (s : St) (a : Act) : (s.act a).nonMagPrev = s.nonMagPrev := rfl
@[simp] theorem evt_nonMagPrev (s : St) (e : Evt) : (s.evt e).nonMagPrev = s.nonMagPrev := rfl
@[simp] theorem act_yawObs (s : St) (a : Act) : (s.act a).yawObs = s.yawObs := rfl
@[simp] theorem evt_yawObs (s : St) (e : Evt) : (s.evt e).yawObs = s.yawObs := rfl
@[simp] theorem act_biasObs (s : St) (a : Act) : (s.act a).biasObs = s.biasObs := rfl
@[simp] theorem evt_biasObs (s : St) (e : Evt) : (s.evt e).biasObs = s.biasObs := rfl
@[simp] theorem act_nBad (s : St) (a : Act) : (s.act a).nBad = s.nBad := rfl
@[simp] theorem evt_nBad (s : St) (e : Evt) : (s.evt e).nBad = s.nBad := rfl
@[simp] theorem act_declCovReset (s : St) (a : Act) : (s.act a).declCovReset = s.declCovReset := rfl
@[simp] theorem evt_declCovReset (s : St) (e : Evt) : (s.evt e).declCovReset = s.declCovReset := rfl
@[simp] theorem act_tAlign (s : St) (a : Act) : (s.act a).tAlign = s.tAlign := rfl
@[simp] theorem evt_tAlign (s : St) (e : Evt) : (s.evt e).tAlign = s.tAlign := rfl
@[simp] theorem act_tMov (s : St) (a : Act) : (s.act a).tMov = s.tMov := rfl
@[simp] theorem evt_tMov (s : St) (e : Evt) : (s.evt e).tMov = s.tMov := rfl
@[simp] theorem act_tNotInh (s : St) (a : Act) : (s.act a).tNotInh = s.tNotInh := rfl
@[simp] theorem evt_tNotInh (s : St) (e : Evt) : (s.evt e).tNotInh = s.tNotInh := rfl
@[simp] theorem act_tYaw (s : St) (a : Act) : (s.act a).tYaw = s.tYaw := rfl
@[simp] theorem evt_tYaw (s : St) (e : Evt) : (s.evt e).tYaw = s.tYaw := rfl
@[simp] theorem act_gpsYawFaulty (s : St) (a : Act) : (s.act a).gpsYawFaulty = s.gpsYawFaulty := rfl
@[simp] theorem evt_gpsYawFaulty (s : St) (e : Evt) : (s.evt e).gpsYawFaulty = s.gpsYawFaulty := rfl
@[simp] theorem act_doGsf (s : St) (a : Act) : (s.act a).doGsf = s.doGsf := rfl
@[simp] theorem evt_doGsf (s : St) (e : Evt) : (s.evt e).doGsf = s.doGsf := rfl
@[simp] theorem act_gsfTime (s : St) (a : Act) : (s.act a).gsfTime = s.gsfTime := rfl
@[simp] theorem evt_gsfTime (s : St) (e : Evt) : (s.evt e).gsfTime = s.gsfTime := rfl
@[simp] theorem act_gsfCount (s : St) (a : Act) : (s.act a).gsfCount = s.gsfCount := rfl
@[simp] theorem evt_gsfCount (s : St) (e : Evt) : (s.evt e).gsfCount = s.gsfCount := rfl
@[simp] theorem act_tPos (s : St) (a : Act) : (s.act a).tPos = s.tPos := rfl
@[simp] theorem evt_tPos (s : St) (e : Evt) : (s.evt e).tPos = s.tPos := rfl
@[simp] theorem act_tDelpos (s : St) (a : Act) : (s.act a).tDelpos = s.tDelpos := rfl
@[simp] theorem evt_tDelpos (s : St) (e : Evt) : (s.evt e).tDelpos = s.tDelpos := rfl
@[simp] theorem act_tVel (s : St) (a : Act) : (s.act a).tVel = s.tVel := rfl
@[simp] theorem evt_tVel (s : St) (e : Evt) : (s.evt e).tVel = s.tVel := rfl
@[simp] theorem act_tOf (s : St) (a : Act) : (s.act a).tOf = s.tOf := rfl
@[simp] theorem evt_tOf (s : St) (e : Evt) : (s.evt e).tOf = s.tOf := rfl
@[simp] theorem act_tBeta (s : St) (a : Act) : (s.act a).tBeta = s.tBeta := rfl
@[simp] theorem evt_tBeta (s : St) (e : Evt) : (s.evt e).tBeta = s.tBeta := rfl
@[simp] theorem act_tArsp (s : St) (a : Act) : (s.act a).tArsp = s.tArsp := rfl
@[simp] theorem evt_tArsp (s : St) (e : Evt) : (s.evt e).tArsp = s.tArsp := rfl
@[simp] theorem act_tFake (s : St) (a : Act) : (s.act a).tFake = s.tFake := rfl
@[simp] theorem evt_tFake (s : St) (e : Evt) : (s.evt e).tFake = s.tFake := rfl
@[simp] theorem act_tGpsYaw (s : St) (a : Act) : (s.act a).tGpsYaw = s.tGpsYaw := rfl
@[simp] theorem evt_tGpsYaw (s : St) (e : Evt) : (s.evt e).tGpsYaw = s.tGpsYaw := rfl
@[simp] theorem act_hposPrev (s : St) (a : Act) : (s.act a).hposPrev = s.hposPrev := rfl
@[simp] theorem evt_hposPrev (s : St) (e : Evt) : (s.evt e).hposPrev = s.hposPrev := rfl
@[simp] theorem act_hposOdom (s : St) (a : Act) : (s.act a).hposOdom = s.hposOdom := rfl
@[simp] theorem evt_hposOdom (s : St) (e : Evt) : (s.evt e).hposOdom = s.hposOdom := rfl
@[simp] theorem act_synth (s : St) (a : Act) : (s.act a).synth = s.synth := rfl
@[simp] theorem evt_synth (s : St) (e : Evt) : (s.evt e).synth = s.synth := rfl
@[simp] theorem act_flowReady (s : St) (a : Act) : (s.act a).flowReady = s.flowReady := rfl
@[simp] theorem evt_flowReady (s : St) (e : Evt) : (s.evt e).flowReady = s.flowReady := rfl
@[simp] theorem act_flowInh (s : St) (a : Act) : (s.act a).flowInh = s.flowInh := rfl
@[simp] theorem evt_flowInh (s : St) (e : Evt) : (s.evt e).flowInh = s.flowInh := rfl
@[simp] theorem act_tGood (s : St) (a : Act) : (s.act a).tGood = s.tGood := rfl
@[simp] theorem evt_tGood (s : St) (e : Evt) : (s.evt e).tGood = s.tGood := rfl
@[simp] theorem act_tBad (s : St) (a : Act) : (s.act a).tBad = s.tBad := rfl
@[simp] theorem evt_tBad (s : St) (e : Evt) : (s.evt e).tBad = s.tBad := rfl
@[simp] theorem evt_log (s : St) (e : Evt) : (s.evt e).log = s.log := rfl
@[simp] theorem act_log (s : St) (a : Act) : (s.act a).log = s.log ++ [a] := rfl
theorem stopMag3D_frame (s : St) :
    (stopMag3D s).tilt = s.tilt ∧ (stopMag3D s).yawAlign = s.yawAlign ∧ (stopMag3D s).gps = s.gps ∧ (stopMag3D s).optFlow = s.optFlow ∧ (stopMag3D s).magHdg = s.magHdg ∧ (stopMag3D s).magDec = s.magDec ∧ (stopMag3D s).wind = s.wind ∧ (stopMag3D s).evPos = s.evPos ∧ (stopMag3D s).evVel = s.evVel ∧ (stopMag3D s).evYaw = s.evYaw ∧ (stopMag3D s).gpsYaw = s.gpsYaw ∧ (stopMag3D s).magDist = s.magDist ∧ (stopMag3D s).magFault = s.magFault ∧ (stopMag3D s).fuseAspd = s.fuseAspd ∧ (stopMag3D s).magAligned = s.magAligned ∧ (stopMag3D s).magYawReq = s.magYawReq ∧ (stopMag3D s).magInhReq = s.magInhReq ∧ (stopMag3D s).velposReq = s.velposReq ∧ (stopMag3D s).inhibited = s.inhibited ∧ (stopMag3D s).nonMagPrev = s.nonMagPrev ∧ (stopMag3D s).yawObs = s.yawObs ∧ (stopMag3D s).biasObs = s.biasObs ∧ (stopMag3D s).nBad = s.nBad ∧ (stopMag3D s).declCovReset = s.declCovReset ∧ (stopMag3D s).tAlign = s.tAlign ∧ (stopMag3D s).tMov = s.tMov ∧ (stopMag3D s).tNotInh = s.tNotInh ∧ (stopMag3D s).tYaw = s.tYaw ∧ (stopMag3D s).gpsYawFaulty = s.gpsYawFaulty ∧ (stopMag3D s).doGsf = s.doGsf ∧ (stopMag3D s).gsfTime = s.gsfTime ∧ (stopMag3D s).gsfCount = s.gsfCount ∧ (stopMag3D s).tPos = s.tPos ∧ (stopMag3D s).tDelpos = s.tDelpos ∧ (stopMag3D s).tVel = s.tVel ∧ (stopMag3D s).tOf = s.tOf ∧ (stopMag3D s).tBeta = s.tBeta ∧ (stopMag3D s).tArsp = s.tArsp ∧ (stopMag3D s).tFake = s.tFake ∧ (stopMag3D s).tGpsYaw = s.tGpsYaw ∧ (stopMag3D s).hposPrev = s.hposPrev ∧ (stopMag3D s).hposOdom = s.hposOdom ∧ (stopMag3D s).synth = s.synth ∧ (stopMag3D s).flowReady = s.flowReady ∧ (stopMag3D s).flowInh = s.flowInh ∧ (stopMag3D s).tGood = s.tGood ∧ (stopMag3D s).tBad = s.tBad := by
  unfold stopMag3D; (try dsimp only); split_ifs <;> simp [*]
@[simp] theorem stopMag3D_tilt (s : St) : (stopMag3D s).tilt = s.tilt := (stopMag3D_frame s).1
@[simp] theorem stopMag3D_yawAlign (s : St) : (stopMag3D s).yawAlign = s.yawAlign := (stopMag3D_frame s).2.1
@[simp] theorem stopMag3D_gps (s : St) : (stopMag3D s).gps = s.gps := (stopMag3D_frame s).2.2.1
@[simp] theorem stopMag3D_optFlow (s : St) : (stopMag3D s).optFlow = s.optFlow := (stopMag3D_frame s).2.2.2.1
@[simp] theorem stopMag3D_magHdg (s : St) : (stopMag3D s).magHdg = s.magHdg := (stopMag3D_frame s).2.2.2.2.1
@[simp] theorem stopMag3D_magDec (s : St) : (stopMag3D s).magDec = s.magDec := (stopMag3D_frame s).2.2.2.2.2.1
@[simp] theorem stopMag3D_wind (s : St) : (stopMag3D s).wind = s.wind := (stopMag3D_frame s).2.2.2.2.2.2.1
@[simp] theorem stopMag3D_evPos (s : St) : (stopMag3D s).evPos = s.evPos := (stopMag3D_frame s).2.2.2.2.2.2.2.1
@[simp] theorem stopMag3D_evVel (s : St) : (stopMag3D s).evVel = s.evVel := (stopMag3D_frame s).2.2.2.2.2.2.2.2.1
@[simp] theorem stopMag3D_evYaw (s : St) : (stopMag3D s).evYaw = s.evYaw := (stopMag3D_frame s).2.2.2.2.2.2.2.2.2.1
@[simp] theorem stopMag3D_gpsYaw (s : St) : (stopMag3D s).gpsYaw = s.gpsYaw := (stopMag3D_frame s).2.2.2.2.2.2.2.2.2.2.1
@[simp] theorem stopMag3D_magDist (s : St) : (stopMag3D s).magDist = s.magDist := (stopMag3D_frame s).2.2.2.2.2.2.2.2.2.2.2.1
@[simp] theorem stopMag3D_magFault (s : St) : (stopMag3D s).magFault = s.magFault := (stopMag3D_frame s).2.2.2.2.2.2.2.2.2.2.2.2.1
@[simp] theorem stopMag3D_fuseAspd (s : St) : (stopMag3D s).fuseAspd = s.fuseAspd := (stopMag3D_frame s).2.2.2.2.2.2.2.2.2.2.2.2.2.1
@[simp] theorem stopMag3D_magAligned (s : St) : (stopMag3D s).magAligned = s.magAligned := (stopMag3D_frame s).2.2.2.2.2.2.2.2.2.2.2.2.2.2.1
@[simp] theorem stopMag3D_magYawReq (s : St) : (stopMag3D s).magYawReq = s.magYawReq := (stopMag3D_frame s).2.2.2.2.2.2.2.2.2.2.2.2.2.2.2.1
@[simp] theorem stopMag3D_magInhReq (s : St) : (stopMag3D s).magInhReq = s.magInhReq := (stopMag3D_frame s).2.2.2.2.2.2.2.2.2.2.2.2.2.2.2.2.1
@[simp] theorem stopMag3D_velposReq (s : St) : (stopMag3D s).velposReq = s.velposReq := (stopMag3D_frame s).2.2.2.2.2.2.2.2.2.2.2.2.2.2.2.2.2.1
@[simp] theorem stopMag3D_inhibited (s : St) : (stopMag3D s).inhibited = s.inhibited := (stopMag3D_frame s).2.2.2.2.2.2.2.2.2.2.2.2.2.2.2.2.2.2.1
@[simp] theorem stopMag3D_nonMagPrev (s : St) : (stopMag3D s).nonMagPrev = s.nonMagPrev := (stopMag3D_frame s).2.2.2.2.2.2.2.2.2.2.2.2.2.2.2.2.2.2.2.1
@[simp] theorem stopMag3D_yawObs (s : St) : (stopMag3D s).yawObs = s.yawObs := (stopMag3D_frame s).2.2.2.2.2.2.2.2.2.2.2.2.2.2.2.2.2.2.2.2.1
@[simp] theorem stopMag3D_biasObs (s : St) : (stopMag3D s).biasObs = s.biasObs := (stopMag3D_frame s).2.2.2.2.2.2.2.2.2.2.2.2.2.2.2.2.2.2.2.2.2.1
@[simp] theorem stopMag3D_nBad (s : St) : (stopMag3D s).nBad = s.nBad := (stopMag3D_frame s).2.2.2.2.2.2.2.2.2.2.2.2.2.2.2.2.2.2.2.2.2.2.1
@[simp] theorem stopMag3D_declCovReset (s : St) : (stopMag3D s).declCovReset = s.declCovReset := (stopMag3D_frame s).2.2.2.2.2.2.2.2.2.2.2.2.2.2.2.2.2.2.2.2.2.2.2.1
@[simp] theorem stopMag3D_tAlign (s : St) : (stopMag3D s).tAlign = s.tAlign := (stopMag3D_frame s).2.2.2.2.2.2.2.2.2.2.2.2.2.2.2.2.2.2.2.2.2.2.2.2.1
@[simp] theorem stopMag3D_tMov (s : St) : (stopMag3D s).tMov = s.tMov := (stopMag3D_frame s).2.2.2.2.2.2.2.2.2.2.2.2.2.2.2.2.2.2.2.2.2.2.2.2.2.1
@[simp] theorem stopMag3D_tNotInh (s : St) : (stopMag3D s).tNotInh = s.tNotInh := (stopMag3D_frame s).2.2.2.2.2.2.2.2.2.2.2.2.2.2.2.2.2.2.2.2.2.2.2.2.2.2.1
@[simp] theorem stopMag3D_tYaw (s : St) : (stopMag3D s).tYaw = s.tYaw := (stopMag3D_frame s).2.2.2.2.2.2.2.2.2.2.2.2.2.2.2.2.2.2.2.2.2.2.2.2.2.2.2.1
@[simp] theorem stopMag3D_gpsYawFaulty (s : St) : (stopMag3D s).gpsYawFaulty = s.gpsYawFaulty := (stopMag3D_frame s).2.2.2.2.2.2.2.2.2.2.2.2.2.2.2.2.2.2.2.2.2.2.2.2.2.2.2.2.1
@[simp] theorem stopMag3D_doGsf (s : St) : (stopMag3D s).doGsf = s.doGsf := (stopMag3D_frame s).2.2.2.2.2.2.2.2.2.2.2.2.2.2.2.2.2.2.2.2.2.2.2.2.2.2.2.2.2.1
@[simp] theorem stopMag3D_gsfTime (s : St) : (stopMag3D s).gsfTime = s.gsfTime := (stopMag3D_frame s).2.2.2.2.2.2.2.2.2.2.2.2.2.2.2.2.2.2.2.2.2.2.2.2.2.2.2.2.2.2.1
@[simp] theorem stopMag3D_gsfCount (s : St) : (stopMag3D s).gsfCount = s.gsfCount := (stopMag3D_frame s).2.2.2.2.2.2.2.2.2.2.2.2.2.2.2.2.2.2.2.2.2.2.2.2.2.2.2.2.2.2.2.1
@[simp] theorem stopMag3D_tPos (s : St) : (stopMag3D s).tPos = s.tPos := (stopMag3D_frame s).2.2.2.2.2.2.2.2.2.2.2.2.2.2.2.2.2.2.2.2.2.2.2.2.2.2.2.2.2.2.2.2.1
@[simp] theorem stopMag3D_tDelpos (s : St) : (stopMag3D s).tDelpos = s.tDelpos := (stopMag3D_frame s).2.2.2.2.2.2.2.2.2.2.2.2.2.2.2.2.2.2.2.2.2.2.2.2.2.2.2.2.2.2.2.2.2.1
@[simp] theorem stopMag3D_tVel (s : St) : (stopMag3D s).tVel = s.tVel := (stopMag3D_frame s).2.2.2.2.2.2.2.2.2.2.2.2.2.2.2.2.2.2.2.2.2.2.2.2.2.2.2.2.2.2.2.2.2.2.1
@[simp] theorem stopMag3D_tOf (s : St) : (stopMag3D s).tOf = s.tOf := (stopMag3D_frame s).2.2.2.2.2.2.2.2.2.2.2.2.2.2.2.2.2.2.2.2.2.2.2.2.2.2.2.2.2.2.2.2.2.2.2.1
@[simp] theorem stopMag3D_tBeta (s : St) : (stopMag3D s).tBeta = s.tBeta := (stopMag3D_frame s).2.2.2.2.2.2.2.2.2.2.2.2.2.2.2.2.2.2.2.2.2.2.2.2.2.2.2.2.2.2.2.2.2.2.2.2.1
@[simp] theorem stopMag3D_tArsp (s : St) : (stopMag3D s).tArsp = s.tArsp := (stopMag3D_frame s).2.2.2.2.2.2.2.2.2.2.2.2.2.2.2.2.2.2.2.2.2.2.2.2.2.2.2.2.2.2.2.2.2.2.2.2.2.1
@[simp] theorem stopMag3D_tFake (s : St) : (stopMag3D s).tFake = s.tFake := (stopMag3D_frame s).2.2.2.2.2.2.2.2.2.2.2.2.2.2.2.2.2.2.2.2.2.2.2.2.2.2.2.2.2.2.2.2.2.2.2.2.2.2.1
@[simp] theorem stopMag3D_tGpsYaw (s : St) : (stopMag3D s).tGpsYaw = s.tGpsYaw := (stopMag3D_frame s).2.2.2.2.2.2.2.2.2.2.2.2.2.2.2.2.2.2.2.2.2.2.2.2.2.2.2.2.2.2.2.2.2.2.2.2.2.2.2.1
@[simp] theorem stopMag3D_hposPrev (s : St) : (stopMag3D s).hposPrev = s.hposPrev := (stopMag3D_frame s).2.2.2.2.2.2.2.2.2.2.2.2.2.2.2.2.2.2.2.2.2.2.2.2.2.2.2.2.2.2.2.2.2.2.2.2.2.2.2.2.1
@[simp] theorem stopMag3D_hposOdom (s : St) : (stopMag3D s).hposOdom = s.hposOdom := (stopMag3D_frame s).2.2.2.2.2.2.2.2.2.2.2.2.2.2.2.2.2.2.2.2.2.2.2.2.2.2.2.2.2.2.2.2.2.2.2.2.2.2.2.2.2.1
@[simp] theorem stopMag3D_synth (s : St) : (stopMag3D s).synth = s.synth := (stopMag3D_frame s).2.2.2.2.2.2.2.2.2.2.2.2.2.2.2.2.2.2.2.2.2.2.2.2.2.2.2.2.2.2.2.2.2.2.2.2.2.2.2.2.2.2.1
@[simp] theorem stopMag3D_flowReady (s : St) : (stopMag3D s).flowReady = s.flowReady := (stopMag3D_frame s).2.2.2.2.2.2.2.2.2.2.2.2.2.2.2.2.2.2.2.2.2.2.2.2.2.2.2.2.2.2.2.2.2.2.2.2.2.2.2.2.2.2.2.1
@[simp] theorem stopMag3D_flowInh (s : St) : (stopMag3D s).flowInh = s.flowInh := (stopMag3D_frame s).2.2.2.2.2.2.2.2.2.2.2.2.2.2.2.2.2.2.2.2.2.2.2.2.2.2.2.2.2.2.2.2.2.2.2.2.2.2.2.2.2.2.2.2.1
@[simp] theorem stopMag3D_tGood (s : St) : (stopMag3D s).tGood = s.tGood := (stopMag3D_frame s).2.2.2.2.2.2.2.2.2.2.2.2.2.2.2.2.2.2.2.2.2.2.2.2.2.2.2.2.2.2.2.2.2.2.2.2.2.2.2.2.2.2.2.2.2.1
@[simp] theorem stopMag3D_tBad (s : St) : (stopMag3D s).tBad = s.tBad := (stopMag3D_frame s).2.2.2.2.2.2.2.2.2.2.2.2.2.2.2.2.2.2.2.2.2.2.2.2.2.2.2.2.2.2.2.2.2.2.2.2.2.2.2.2.2.2.2.2.2.2

theorem stopMagHdg_frame (s : St) :
    (stopMagHdg s).tilt = s.tilt ∧ (stopMagHdg s).yawAlign = s.yawAlign ∧ (stopMagHdg s).gps = s.gps ∧ (stopMagHdg s).optFlow = s.optFlow ∧ (stopMagHdg s).mag3D = s.mag3D ∧ (stopMagHdg s).magDec = s.magDec ∧ (stopMagHdg s).wind = s.wind ∧ (stopMagHdg s).evPos = s.evPos ∧ (stopMagHdg s).evVel = s.evVel ∧ (stopMagHdg s).evYaw = s.evYaw ∧ (stopMagHdg s).gpsYaw = s.gpsYaw ∧ (stopMagHdg s).magDist = s.magDist ∧ (stopMagHdg s).magFault = s.magFault ∧ (stopMagHdg s).fuseAspd = s.fuseAspd ∧ (stopMagHdg s).magAligned = s.magAligned ∧ (stopMagHdg s).magYawReq = s.magYawReq ∧ (stopMagHdg s).magInhReq = s.magInhReq ∧ (stopMagHdg s).velposReq = s.velposReq ∧ (stopMagHdg s).inhibited = s.inhibited ∧ (stopMagHdg s).nonMagPrev = s.nonMagPrev ∧ (stopMagHdg s).yawObs = s.yawObs ∧ (stopMagHdg s).biasObs = s.biasObs ∧ (stopMagHdg s).nBad = s.nBad ∧ (stopMagHdg s).declCovReset = s.declCovReset ∧ (stopMagHdg s).tAlign = s.tAlign ∧ (stopMagHdg s).tMov = s.tMov ∧ (stopMagHdg s).tNotInh = s.tNotInh ∧ (stopMagHdg s).tYaw = s.tYaw ∧ (stopMagHdg s).gpsYawFaulty = s.gpsYawFaulty ∧ (stopMagHdg s).doGsf = s.doGsf ∧ (stopMagHdg s).gsfTime = s.gsfTime ∧ (stopMagHdg s).gsfCount = s.gsfCount ∧ (stopMagHdg s).tPos = s.tPos ∧ (stopMagHdg s).tDelpos = s.tDelpos ∧ (stopMagHdg s).tVel = s.tVel ∧ (stopMagHdg s).tOf = s.tOf ∧ (stopMagHdg s).tBeta = s.tBeta ∧ (stopMagHdg s).tArsp = s.tArsp ∧ (stopMagHdg s).tFake = s.tFake ∧ (stopMagHdg s).tGpsYaw = s.tGpsYaw ∧ (stopMagHdg s).hposPrev = s.hposPrev ∧ (stopMagHdg s).hposOdom = s.hposOdom ∧ (stopMagHdg s).synth = s.synth ∧ (stopMagHdg s).flowReady = s.flowReady ∧ (stopMagHdg s).flowInh = s.flowInh ∧ (stopMagHdg s).tGood = s.tGood ∧ (stopMagHdg s).tBad = s.tBad := by
  unfold stopMagHdg; simp
@[simp] theorem stopMagHdg_tilt (s : St) : (stopMagHdg s).tilt = s.tilt := (stopMagHdg_frame s).1
@[simp] theorem stopMagHdg_yawAlign (s : St) : (stopMagHdg s).yawAlign = s.yawAlign := (stopMagHdg_frame s).2.1
@[simp] theorem stopMagHdg_gps (s : St) : (stopMagHdg s).gps = s.gps := (stopMagHdg_frame s).2.2.1
@[simp] theorem stopMagHdg_optFlow (s : St) : (stopMagHdg s).optFlow = s.optFlow := (stopMagHdg_frame s).2.2.2.1
@[simp] theorem stopMagHdg_mag3D (s : St) : (stopMagHdg s).mag3D = s.mag3D := (stopMagHdg_frame s).2.2.2.2.1
@[simp] theorem stopMagHdg_magDec (s : St) : (stopMagHdg s).magDec = s.magDec := (stopMagHdg_frame s).2.2.2.2.2.1
@[simp] theorem stopMagHdg_wind (s : St) : (stopMagHdg s).wind = s.wind := (stopMagHdg_frame s).2.2.2.2.2.2.1
@[simp] theorem stopMagHdg_evPos (s : St) : (stopMagHdg s).evPos = s.evPos := (stopMagHdg_frame s).2.2.2.2.2.2.2.1
@[simp] theorem stopMagHdg_evVel (s : St) : (stopMagHdg s).evVel = s.evVel := (stopMagHdg_frame s).2.2.2.2.2.2.2.2.1
@[simp] theorem stopMagHdg_evYaw (s : St) : (stopMagHdg s).evYaw = s.evYaw := (stopMagHdg_frame s).2.2.2.2.2.2.2.2.2.1
@[simp] theorem stopMagHdg_gpsYaw (s : St) : (stopMagHdg s).gpsYaw = s.gpsYaw := (stopMagHdg_frame s).2.2.2.2.2.2.2.2.2.2.1
@[simp] theorem stopMagHdg_magDist (s : St) : (stopMagHdg s).magDist = s.magDist := (stopMagHdg_frame s).2.2.2.2.2.2.2.2.2.2.2.1
@[simp] theorem stopMagHdg_magFault (s : St) : (stopMagHdg s).magFault = s.magFault := (stopMagHdg_frame s).2.2.2.2.2.2.2.2.2.2.2.2.1
@[simp] theorem stopMagHdg_fuseAspd (s : St) : (stopMagHdg s).fuseAspd = s.fuseAspd := (stopMagHdg_frame s).2.2.2.2.2.2.2.2.2.2.2.2.2.1
@[simp] theorem stopMagHdg_magAligned (s : St) : (stopMagHdg s).magAligned = s.magAligned := (stopMagHdg_frame s).2.2.2.2.2.2.2.2.2.2.2.2.2.2.1
@[simp] theorem stopMagHdg_magYawReq (s : St) : (stopMagHdg s).magYawReq = s.magYawReq := (stopMagHdg_frame s).2.2.2.2.2.2.2.2.2.2.2.2.2.2.2.1
@[simp] theorem stopMagHdg_magInhReq (s : St) : (stopMagHdg s).magInhReq = s.magInhReq := (stopMagHdg_frame s).2.2.2.2.2.2.2.2.2.2.2.2.2.2.2.2.1
@[simp] theorem stopMagHdg_velposReq (s : St) : (stopMagHdg s).velposReq = s.velposReq := (stopMagHdg_frame s).2.2.2.2.2.2.2.2.2.2.2.2.2.2.2.2.2.1
@[simp] theorem stopMagHdg_inhibited (s : St) : (stopMagHdg s).inhibited = s.inhibited := (stopMagHdg_frame s).2.2.2.2.2.2.2.2.2.2.2.2.2.2.2.2.2.2.1
@[simp] theorem stopMagHdg_nonMagPrev (s : St) : (stopMagHdg s).nonMagPrev = s.nonMagPrev := (stopMagHdg_frame s).2.2.2.2.2.2.2.2.2.2.2.2.2.2.2.2.2.2.2.1
@[simp] theorem stopMagHdg_yawObs (s : St) : (stopMagHdg s).yawObs = s.yawObs := (stopMagHdg_frame s).2.2.2.2.2.2.2.2.2.2.2.2.2.2.2.2.2.2.2.2.1
@[simp] theorem stopMagHdg_biasObs (s : St) : (stopMagHdg s).biasObs = s.biasObs := (stopMagHdg_frame s).2.2.2.2.2.2.2.2.2.2.2.2.2.2.2.2.2.2.2.2.2.1
@[simp] theorem stopMagHdg_nBad (s : St) : (stopMagHdg s).nBad = s.nBad := (stopMagHdg_frame s).2.2.2.2.2.2.2.2.2.2.2.2.2.2.2.2.2.2.2.2.2.2.1
@[simp] theorem stopMagHdg_declCovReset (s : St) : (stopMagHdg s).declCovReset = s.declCovReset := (stopMagHdg_frame s).2.2.2.2.2.2.2.2.2.2.2.2.2.2.2.2.2.2.2.2.2.2.2.1
@[simp] theorem stopMagHdg_tAlign (s : St) : (stopMagHdg s).tAlign = s.tAlign := (stopMagHdg_frame s).2.2.2.2.2.2.2.2.2.2.2.2.2.2.2.2.2.2.2.2.2.2.2.2.1
@[simp] theorem stopMagHdg_tMov (s : St) : (stopMagHdg s).tMov = s.tMov := (stopMagHdg_frame s).2.2.2.2.2.2.2.2.2.2.2.2.2.2.2.2.2.2.2.2.2.2.2.2.2.1
@[simp] theorem stopMagHdg_tNotInh (s : St) : (stopMagHdg s).tNotInh = s.tNotInh := (stopMagHdg_frame s).2.2.2.2.2.2.2.2.2.2.2.2.2.2.2.2.2.2.2.2.2.2.2.2.2.2.1
@[simp] theorem stopMagHdg_tYaw (s : St) : (stopMagHdg s).tYaw = s.tYaw := (stopMagHdg_frame s).2.2.2.2.2.2.2.2.2.2.2.2.2.2.2.2.2.2.2.2.2.2.2.2.2.2.2.1
@[simp] theorem stopMagHdg_gpsYawFaulty (s : St) : (stopMagHdg s).gpsYawFaulty = s.gpsYawFaulty := (stopMagHdg_frame s).2.2.2.2.2.2.2.2.2.2.2.2.2.2.2.2.2.2.2.2.2.2.2.2.2.2.2.2.1
@[simp] theorem stopMagHdg_doGsf (s : St) : (stopMagHdg s).doGsf = s.doGsf := (stopMagHdg_frame s).2.2.2.2.2.2.2.2.2.2.2.2.2.2.2.2.2.2.2.2.2.2.2.2.2.2.2.2.2.1
@[simp] theorem stopMagHdg_gsfTime (s : St) : (stopMagHdg s).gsfTime = s.gsfTime := (stopMagHdg_frame s).2.2.2.2.2.2.2.2.2.2.2.2.2.2.2.2.2.2.2.2.2.2.2.2.2.2.2.2.2.2.1
@[simp] theorem stopMagHdg_gsfCount (s : St) : (stopMagHdg s).gsfCount = s.gsfCount := (stopMagHdg_frame s).2.2.2.2.2.2.2.2.2.2.2.2.2.2.2.2.2.2.2.2.2.2.2.2.2.2.2.2.2.2.2.1
@[simp] theorem stopMagHdg_tPos (s : St) : (stopMagHdg s).tPos = s.tPos := (stopMagHdg_frame s).2.2.2.2.2.2.2.2.2.2.2.2.2.2.2.2.2.2.2.2.2.2.2.2.2.2.2.2.2.2.2.2.1
@[simp] theorem stopMagHdg_tDelpos (s : St) : (stopMagHdg s).tDelpos = s.tDelpos := (stopMagHdg_frame s).2.2.2.2.2.2.2.2.2.2.2.2.2.2.2.2.2.2.2.2.2.2.2.2.2.2.2.2.2.2.2.2.2.1
@[simp] theorem stopMagHdg_tVel (s : St) : (stopMagHdg s).tVel = s.tVel := (stopMagHdg_frame s).2.2.2.2.2.2.2.2.2.2.2.2.2.2.2.2.2.2.2.2.2.2.2.2.2.2.2.2.2.2.2.2.2.2.1
@[simp] theorem stopMagHdg_tOf (s : St) : (stopMagHdg s).tOf = s.tOf := (stopMagHdg_frame s).2.2.2.2.2.2.2.2.2.2.2.2.2.2.2.2.2.2.2.2.2.2.2.2.2.2.2.2.2.2.2.2.2.2.2.1
@[simp] theorem stopMagHdg_tBeta (s : St) : (stopMagHdg s).tBeta = s.tBeta := (stopMagHdg_frame s).2.2.2.2.2.2.2.2.2.2.2.2.2.2.2.2.2.2.2.2.2.2.2.2.2.2.2.2.2.2.2.2.2.2.2.2.1
@[simp] theorem stopMagHdg_tArsp (s : St) : (stopMagHdg s).tArsp = s.tArsp := (stopMagHdg_frame s).2.2.2.2.2.2.2.2.2.2.2.2.2.2.2.2.2.2.2.2.2.2.2.2.2.2.2.2.2.2.2.2.2.2.2.2.2.1
@[simp] theorem stopMagHdg_tFake (s : St) : (stopMagHdg s).tFake = s.tFake := (stopMagHdg_frame s).2.2.2.2.2.2.2.2.2.2.2.2.2.2.2.2.2.2.2.2.2.2.2.2.2.2.2.2.2.2.2.2.2.2.2.2.2.2.1
@[simp] theorem stopMagHdg_tGpsYaw (s : St) : (stopMagHdg s).tGpsYaw = s.tGpsYaw := (stopMagHdg_frame s).2.2.2.2.2.2.2.2.2.2.2.2.2.2.2.2.2.2.2.2.2.2.2.2.2.2.2.2.2.2.2.2.2.2.2.2.2.2.2.1
@[simp] theorem stopMagHdg_hposPrev (s : St) : (stopMagHdg s).hposPrev = s.hposPrev := (stopMagHdg_frame s).2.2.2.2.2.2.2.2.2.2.2.2.2.2.2.2.2.2.2.2.2.2.2.2.2.2.2.2.2.2.2.2.2.2.2.2.2.2.2.2.1
@[simp] theorem stopMagHdg_hposOdom (s : St) : (stopMagHdg s).hposOdom = s.hposOdom := (stopMagHdg_frame s).2.2.2.2.2.2.2.2.2.2.2.2.2.2.2.2.2.2.2.2.2.2.2.2.2.2.2.2.2.2.2.2.2.2.2.2.2.2.2.2.2.1
@[simp] theorem stopMagHdg_synth (s : St) : (stopMagHdg s).synth = s.synth := (stopMagHdg_frame s).2.2.2.2.2.2.2.2.2.2.2.2.2.2.2.2.2.2.2.2.2.2.2.2.2.2.2.2.2.2.2.2.2.2.2.2.2.2.2.2.2.2.1
@[simp] theorem stopMagHdg_flowReady (s : St) : (stopMagHdg s).flowReady = s.flowReady := (stopMagHdg_frame s).2.2.2.2.2.2.2.2.2.2.2.2.2.2.2.2.2.2.2.2.2.2.2.2.2.2.2.2.2.2.2.2.2.2.2.2.2.2.2.2.2.2.2.1
@[simp] theorem stopMagHdg_flowInh (s : St) : (stopMagHdg s).flowInh = s.flowInh := (stopMagHdg_frame s).2.2.2.2.2.2.2.2.2.2.2.2.2.2.2.2.2.2.2.2.2.2.2.2.2.2.2.2.2.2.2.2.2.2.2.2.2.2.2.2.2.2.2.2.1
@[simp] theorem stopMagHdg_tGood (s : St) : (stopMagHdg s).tGood = s.tGood := (stopMagHdg_frame s).2.2.2.2.2.2.2.2.2.2.2.2.2.2.2.2.2.2.2.2.2.2.2.2.2.2.2.2.2.2.2.2.2.2.2.2.2.2.2.2.2.2.2.2.2.1
@[simp] theorem stopMagHdg_tBad (s : St) : (stopMagHdg s).tBad = s.tBad := (stopMagHdg_frame s).2.2.2.2.2.2.2.2.2.2.2.2.2.2.2.2.2.2.2.2.2.2.2.2.2.2.2.2.2.2.2.2.2.2.2.2.2.2.2.2.2.2.2.2.2.2

theorem clearMagCov_frame (s : St) :
    (clearMagCov s).tilt = s.tilt ∧ (clearMagCov s).yawAlign = s.yawAlign ∧ (clearMagCov s).gps = s.gps ∧ (clearMagCov s).optFlow = s.optFlow ∧ (clearMagCov s).magHdg = s.magHdg ∧ (clearMagCov s).mag3D = s.mag3D ∧ (clearMagCov s).magDec = s.magDec ∧ (clearMagCov s).wind = s.wind ∧ (clearMagCov s).evPos = s.evPos ∧ (clearMagCov s).evVel = s.evVel ∧ (clearMagCov s).evYaw = s.evYaw ∧ (clearMagCov s).gpsYaw = s.gpsYaw ∧ (clearMagCov s).magDist = s.magDist ∧ (clearMagCov s).magFault = s.magFault ∧ (clearMagCov s).fuseAspd = s.fuseAspd ∧ (clearMagCov s).magAligned = s.magAligned ∧ (clearMagCov s).magYawReq = s.magYawReq ∧ (clearMagCov s).magInhReq = s.magInhReq ∧ (clearMagCov s).velposReq = s.velposReq ∧ (clearMagCov s).inhibited = s.inhibited ∧ (clearMagCov s).nonMagPrev = s.nonMagPrev ∧ (clearMagCov s).yawObs = s.yawObs ∧ (clearMagCov s).biasObs = s.biasObs ∧ (clearMagCov s).nBad = s.nBad ∧ (clearMagCov s).tAlign = s.tAlign ∧ (clearMagCov s).tMov = s.tMov ∧ (clearMagCov s).tNotInh = s.tNotInh ∧ (clearMagCov s).tYaw = s.tYaw ∧ (clearMagCov s).gpsYawFaulty = s.gpsYawFaulty ∧ (clearMagCov s).doGsf = s.doGsf ∧ (clearMagCov s).gsfTime = s.gsfTime ∧ (clearMagCov s).gsfCount = s.gsfCount ∧ (clearMagCov s).tPos = s.tPos ∧ (clearMagCov s).tDelpos = s.tDelpos ∧ (clearMagCov s).tVel = s.tVel ∧ (clearMagCov s).tOf = s.tOf ∧ (clearMagCov s).tBeta = s.tBeta ∧ (clearMagCov s).tArsp = s.tArsp ∧ (clearMagCov s).tFake = s.tFake ∧ (clearMagCov s).tGpsYaw = s.tGpsYaw ∧ (clearMagCov s).hposPrev = s.hposPrev ∧ (clearMagCov s).hposOdom = s.hposOdom ∧ (clearMagCov s).synth = s.synth ∧ (clearMagCov s).flowReady = s.flowReady ∧ (clearMagCov s).flowInh = s.flowInh ∧ (clearMagCov s).tGood = s.tGood ∧ (clearMagCov s).tBad = s.tBad := by
  unfold clearMagCov; simp
@[simp] theorem clearMagCov_tilt (s : St) : (clearMagCov s).tilt = s.tilt := (clearMagCov_frame s).1
@[simp] theorem clearMagCov_yawAlign (s : St) : (clearMagCov s).yawAlign = s.yawAlign := (clearMagCov_frame s).2.1
@[simp] theorem clearMagCov_gps (s : St) : (clearMagCov s).gps = s.gps := (clearMagCov_frame s).2.2.1
@[simp] theorem clearMagCov_optFlow (s : St) : (clearMagCov s).optFlow = s.optFlow := (clearMagCov_frame s).2.2.2.1
@[simp] theorem clearMagCov_magHdg (s : St) : (clearMagCov s).magHdg = s.magHdg := (clearMagCov_frame s).2.2.2.2.1
@[simp] theorem clearMagCov_mag3D (s : St) : (clearMagCov s).mag3D = s.mag3D := (clearMagCov_frame s).2.2.2.2.2.1
@[simp] theorem clearMagCov_magDec (s : St) : (clearMagCov s).magDec = s.magDec := (clearMagCov_frame s).2.2.2.2.2.2.1
@[simp] theorem clearMagCov_wind (s : St) : (clearMagCov s).wind = s.wind := (clearMagCov_frame s).2.2.2.2.2.2.2.1
@[simp] theorem clearMagCov_evPos (s : St) : (clearMagCov s).evPos = s.evPos := (clearMagCov_frame s).2.2.2.2.2.2.2.2.1
@[simp] theorem clearMagCov_evVel (s : St) : (clearMagCov s).evVel = s.evVel := (clearMagCov_frame s).2.2.2.2.2.2.2.2.2.1
@[simp] theorem clearMagCov_evYaw (s : St) : (clearMagCov s).evYaw = s.evYaw := (clearMagCov_frame s).2.2.2.2.2.2.2.2.2.2.1
@[simp] theorem clearMagCov_gpsYaw (s : St) : (clearMagCov s).gpsYaw = s.gpsYaw := (clearMagCov_frame s).2.2.2.2.2.2.2.2.2.2.2.1
@[simp] theorem clearMagCov_magDist (s : St) : (clearMagCov s).magDist = s.magDist := (clearMagCov_frame s).2.2.2.2.2.2.2.2.2.2.2.2.1
@[simp] theorem clearMagCov_magFault (s : St) : (clearMagCov s).magFault = s.magFault := (clearMagCov_frame s).2.2.2.2.2.2.2.2.2.2.2.2.2.1
@[simp] theorem clearMagCov_fuseAspd (s : St) : (clearMagCov s).fuseAspd = s.fuseAspd := (clearMagCov_frame s).2.2.2.2.2.2.2.2.2.2.2.2.2.2.1
@[simp] theorem clearMagCov_magAligned (s : St) : (clearMagCov s).magAligned = s.magAligned := (clearMagCov_frame s).2.2.2.2.2.2.2.2.2.2.2.2.2.2.2.1
@[simp] theorem clearMagCov_magYawReq (s : St) : (clearMagCov s).magYawReq = s.magYawReq := (clearMagCov_frame s).2.2.2.2.2.2.2.2.2.2.2.2.2.2.2.2.1
@[simp] theorem clearMagCov_magInhReq (s : St) : (clearMagCov s).magInhReq = s.magInhReq := (clearMagCov_frame s).2.2.2.2.2.2.2.2.2.2.2.2.2.2.2.2.2.1
@[simp] theorem clearMagCov_velposReq (s : St) : (clearMagCov s).velposReq = s.velposReq := (clearMagCov_frame s).2.2.2.2.2.2.2.2.2.2.2.2.2.2.2.2.2.2.1
@[simp] theorem clearMagCov_inhibited (s : St) : (clearMagCov s).inhibited = s.inhibited := (clearMagCov_frame s).2.2.2.2.2.2.2.2.2.2.2.2.2.2.2.2.2.2.2.1
@[simp] theorem clearMagCov_nonMagPrev (s : St) : (clearMagCov s).nonMagPrev = s.nonMagPrev := (clearMagCov_frame s).2.2.2.2.2.2.2.2.2.2.2.2.2.2.2.2.2.2.2.2.1
@[simp] theorem clearMagCov_yawObs (s : St) : (clearMagCov s).yawObs = s.yawObs := (clearMagCov_frame s).2.2.2.2.2.2.2.2.2.2.2.2.2.2.2.2.2.2.2.2.2.1
@[simp] theorem clearMagCov_biasObs (s : St) : (clearMagCov s).biasObs = s.biasObs := (clearMagCov_frame s).2.2.2.2.2.2.2.2.2.2.2.2.2.2.2.2.2.2.2.2.2.2.1
@[simp] theorem clearMagCov_nBad (s : St) : (clearMagCov s).nBad = s.nBad := (clearMagCov_frame s).2.2.2.2.2.2.2.2.2.2.2.2.2.2.2.2.2.2.2.2.2.2.2.1
@[simp] theorem clearMagCov_tAlign (s : St) : (clearMagCov s).tAlign = s.tAlign := (clearMagCov_frame s).2.2.2.2.2.2.2.2.2.2.2.2.2.2.2.2.2.2.2.2.2.2.2.2.1
@[simp] theorem clearMagCov_tMov (s : St) : (clearMagCov s).tMov = s.tMov := (clearMagCov_frame s).2.2.2.2.2.2.2.2.2.2.2.2.2.2.2.2.2.2.2.2.2.2.2.2.2.1
@[simp] theorem clearMagCov_tNotInh (s : St) : (clearMagCov s).tNotInh = s.tNotInh := (clearMagCov_frame s).2.2.2.2.2.2.2.2.2.2.2.2.2.2.2.2.2.2.2.2.2.2.2.2.2.2.1
@[simp] theorem clearMagCov_tYaw (s : St) : (clearMagCov s).tYaw = s.tYaw := (clearMagCov_frame s).2.2.2.2.2.2.2.2.2.2.2.2.2.2.2.2.2.2.2.2.2.2.2.2.2.2.2.1
@[simp] theorem clearMagCov_gpsYawFaulty (s : St) : (clearMagCov s).gpsYawFaulty = s.gpsYawFaulty := (clearMagCov_frame s).2.2.2.2.2.2.2.2.2.2.2.2.2.2.2.2.2.2.2.2.2.2.2.2.2.2.2.2.1
@[simp] theorem clearMagCov_doGsf (s : St) : (clearMagCov s).doGsf = s.doGsf := (clearMagCov_frame s).2.2.2.2.2.2.2.2.2.2.2.2.2.2.2.2.2.2.2.2.2.2.2.2.2.2.2.2.2.1
@[simp] theorem clearMagCov_gsfTime (s : St) : (clearMagCov s).gsfTime = s.gsfTime := (clearMagCov_frame s).2.2.2.2.2.2.2.2.2.2.2.2.2.2.2.2.2.2.2.2.2.2.2.2.2.2.2.2.2.2.1
@[simp] theorem clearMagCov_gsfCount (s : St) : (clearMagCov s).gsfCount = s.gsfCount := (clearMagCov_frame s).2.2.2.2.2.2.2.2.2.2.2.2.2.2.2.2.2.2.2.2.2.2.2.2.2.2.2.2.2.2.2.1
@[simp] theorem clearMagCov_tPos (s : St) : (clearMagCov s).tPos = s.tPos := (clearMagCov_frame s).2.2.2.2.2.2.2.2.2.2.2.2.2.2.2.2.2.2.2.2.2.2.2.2.2.2.2.2.2.2.2.2.1
@[simp] theorem clearMagCov_tDelpos (s : St) : (clearMagCov s).tDelpos = s.tDelpos := (clearMagCov_frame s).2.2.2.2.2.2.2.2.2.2.2.2.2.2.2.2.2.2.2.2.2.2.2.2.2.2.2.2.2.2.2.2.2.1
@[simp] theorem clearMagCov_tVel (s : St) : (clearMagCov s).tVel = s.tVel := (clearMagCov_frame s).2.2.2.2.2.2.2.2.2.2.2.2.2.2.2.2.2.2.2.2.2.2.2.2.2.2.2.2.2.2.2.2.2.2.1
@[simp] theorem clearMagCov_tOf (s : St) : (clearMagCov s).tOf = s.tOf := (clearMagCov_frame s).2.2.2.2.2.2.2.2.2.2.2.2.2.2.2.2.2.2.2.2.2.2.2.2.2.2.2.2.2.2.2.2.2.2.2.1
@[simp] theorem clearMagCov_tBeta (s : St) : (clearMagCov s).tBeta = s.tBeta := (clearMagCov_frame s).2.2.2.2.2.2.2.2.2.2.2.2.2.2.2.2.2.2.2.2.2.2.2.2.2.2.2.2.2.2.2.2.2.2.2.2.1
@[simp] theorem clearMagCov_tArsp (s : St) : (clearMagCov s).tArsp = s.tArsp := (clearMagCov_frame s).2.2.2.2.2.2.2.2.2.2.2.2.2.2.2.2.2.2.2.2.2.2.2.2.2.2.2.2.2.2.2.2.2.2.2.2.2.1
@[simp] theorem clearMagCov_tFake (s : St) : (clearMagCov s).tFake = s.tFake := (clearMagCov_frame s).2.2.2.2.2.2.2.2.2.2.2.2.2.2.2.2.2.2.2.2.2.2.2.2.2.2.2.2.2.2.2.2.2.2.2.2.2.2.1
@[simp] theorem clearMagCov_tGpsYaw (s : St) : (clearMagCov s).tGpsYaw = s.tGpsYaw := (clearMagCov_frame s).2.2.2.2.2.2.2.2.2.2.2.2.2.2.2.2.2.2.2.2.2.2.2.2.2.2.2.2.2.2.2.2.2.2.2.2.2.2.2.1
@[simp] theorem clearMagCov_hposPrev (s : St) : (clearMagCov s).hposPrev = s.hposPrev := (clearMagCov_frame s).2.2.2.2.2.2.2.2.2.2.2.2.2.2.2.2.2.2.2.2.2.2.2.2.2.2.2.2.2.2.2.2.2.2.2.2.2.2.2.2.1
@[simp] theorem clearMagCov_hposOdom (s : St) : (clearMagCov s).hposOdom = s.hposOdom := (clearMagCov_frame s).2.2.2.2.2.2.2.2.2.2.2.2.2.2.2.2.2.2.2.2.2.2.2.2.2.2.2.2.2.2.2.2.2.2.2.2.2.2.2.2.2.1
@[simp] theorem clearMagCov_synth (s : St) : (clearMagCov s).synth = s.synth := (clearMagCov_frame s).2.2.2.2.2.2.2.2.2.2.2.2.2.2.2.2.2.2.2.2.2.2.2.2.2.2.2.2.2.2.2.2.2.2.2.2.2.2.2.2.2.2.1
@[simp] theorem clearMagCov_flowReady (s : St) : (clearMagCov s).flowReady = s.flowReady := (clearMagCov_frame s).2.2.2.2.2.2.2.2.2.2.2.2.2.2.2.2.2.2.2.2.2.2.2.2.2.2.2.2.2.2.2.2.2.2.2.2.2.2.2.2.2.2.2.1
@[simp] theorem clearMagCov_flowInh (s : St) : (clearMagCov s).flowInh = s.flowInh := (clearMagCov_frame s).2.2.2.2.2.2.2.2.2.2.2.2.2.2.2.2.2.2.2.2.2.2.2.2.2.2.2.2.2.2.2.2.2.2.2.2.2.2.2.2.2.2.2.2.1
@[simp] theorem clearMagCov_tGood (s : St) : (clearMagCov s).tGood = s.tGood := (clearMagCov_frame s).2.2.2.2.2.2.2.2.2.2.2.2.2.2.2.2.2.2.2.2.2.2.2.2.2.2.2.2.2.2.2.2.2.2.2.2.2.2.2.2.2.2.2.2.2.1
@[simp] theorem clearMagCov_tBad (s : St) : (clearMagCov s).tBad = s.tBad := (clearMagCov_frame s).2.2.2.2.2.2.2.2.2.2.2.2.2.2.2.2.2.2.2.2.2.2.2.2.2.2.2.2.2.2.2.2.2.2.2.2.2.2.2.2.2.2.2.2.2.2

theorem stopMag_frame (s : St) :
    (stopMag s).tilt = s.tilt ∧ (stopMag s).yawAlign = s.yawAlign ∧ (stopMag s).gps = s.gps ∧ (stopMag s).optFlow = s.optFlow ∧ (stopMag s).magDec = s.magDec ∧ (stopMag s).wind = s.wind ∧ (stopMag s).evPos = s.evPos ∧ (stopMag s).evVel = s.evVel ∧ (stopMag s).evYaw = s.evYaw ∧ (stopMag s).gpsYaw = s.gpsYaw ∧ (stopMag s).magDist = s.magDist ∧ (stopMag s).magFault = s.magFault ∧ (stopMag s).fuseAspd = s.fuseAspd ∧ (stopMag s).magAligned = s.magAligned ∧ (stopMag s).magYawReq = s.magYawReq ∧ (stopMag s).magInhReq = s.magInhReq ∧ (stopMag s).velposReq = s.velposReq ∧ (stopMag s).inhibited = s.inhibited ∧ (stopMag s).nonMagPrev = s.nonMagPrev ∧ (stopMag s).yawObs = s.yawObs ∧ (stopMag s).biasObs = s.biasObs ∧ (stopMag s).nBad = s.nBad ∧ (stopMag s).tAlign = s.tAlign ∧ (stopMag s).tMov = s.tMov ∧ (stopMag s).tNotInh = s.tNotInh ∧ (stopMag s).tYaw = s.tYaw ∧ (stopMag s).gpsYawFaulty = s.gpsYawFaulty ∧ (stopMag s).doGsf = s.doGsf ∧ (stopMag s).gsfTime = s.gsfTime ∧ (stopMag s).gsfCount = s.gsfCount ∧ (stopMag s).tPos = s.tPos ∧ (stopMag s).tDelpos = s.tDelpos ∧ (stopMag s).tVel = s.tVel ∧ (stopMag s).tOf = s.tOf ∧ (stopMag s).tBeta = s.tBeta ∧ (stopMag s).tArsp = s.tArsp ∧ (stopMag s).tFake = s.tFake ∧ (stopMag s).tGpsYaw = s.tGpsYaw ∧ (stopMag s).hposPrev = s.hposPrev ∧ (stopMag s).hposOdom = s.hposOdom ∧ (stopMag s).synth = s.synth ∧ (stopMag s).flowReady = s.flowReady ∧ (stopMag s).flowInh = s.flowInh ∧ (stopMag s).tGood = s.tGood ∧ (stopMag s).tBad = s.tBad := by
  unfold stopMag; simp
@[simp] theorem stopMag_tilt (s : St) : (stopMag s).tilt = s.tilt := (stopMag_frame s).1
@[simp] theorem stopMag_yawAlign (s : St) : (stopMag s).yawAlign = s.yawAlign := (stopMag_frame s).2.1
@[simp] theorem stopMag_gps (s : St) : (stopMag s).gps = s.gps := (stopMag_frame s).2.2.1
@[simp] theorem stopMag_optFlow (s : St) : (stopMag s).optFlow = s.optFlow := (stopMag_frame s).2.2.2.1
@[simp] theorem stopMag_magDec (s : St) : (stopMag s).magDec = s.magDec := (stopMag_frame s).2.2.2.2.1
@[simp] theorem stopMag_wind (s : St) : (stopMag s).wind = s.wind := (stopMag_frame s).2.2.2.2.2.1
@[simp] theorem stopMag_evPos (s : St) : (stopMag s).evPos = s.evPos := (stopMag_frame s).2.2.2.2.2.2.1
@[simp] theorem stopMag_evVel (s : St) : (stopMag s).evVel = s.evVel := (stopMag_frame s).2.2.2.2.2.2.2.1
@[simp] theorem stopMag_evYaw (s : St) : (stopMag s).evYaw = s.evYaw := (stopMag_frame s).2.2.2.2.2.2.2.2.1
@[simp] theorem stopMag_gpsYaw (s : St) : (stopMag s).gpsYaw = s.gpsYaw := (stopMag_frame s).2.2.2.2.2.2.2.2.2.1
@[simp] theorem stopMag_magDist (s : St) : (stopMag s).magDist = s.magDist := (stopMag_frame s).2.2.2.2.2.2.2.2.2.2.1
@[simp] theorem stopMag_magFault (s : St) : (stopMag s).magFault = s.magFault := (stopMag_frame s).2.2.2.2.2.2.2.2.2.2.2.1
@[simp] theorem stopMag_fuseAspd (s : St) : (stopMag s).fuseAspd = s.fuseAspd := (stopMag_frame s).2.2.2.2.2.2.2.2.2.2.2.2.1
@[simp] theorem stopMag_magAligned (s : St) : (stopMag s).magAligned = s.magAligned := (stopMag_frame s).2.2.2.2.2.2.2.2.2.2.2.2.2.1
@[simp] theorem stopMag_magYawReq (s : St) : (stopMag s).magYawReq = s.magYawReq := (stopMag_frame s).2.2.2.2.2.2.2.2.2.2.2.2.2.2.1
@[simp] theorem stopMag_magInhReq (s : St) : (stopMag s).magInhReq = s.magInhReq := (stopMag_frame s).2.2.2.2.2.2.2.2.2.2.2.2.2.2.2.1
@[simp] theorem stopMag_velposReq (s : St) : (stopMag s).velposReq = s.velposReq := (stopMag_frame s).2.2.2.2.2.2.2.2.2.2.2.2.2.2.2.2.1
@[simp] theorem stopMag_inhibited (s : St) : (stopMag s).inhibited = s.inhibited := (stopMag_frame s).2.2.2.2.2.2.2.2.2.2.2.2.2.2.2.2.2.1
@[simp] theorem stopMag_nonMagPrev (s : St) : (stopMag s).nonMagPrev = s.nonMagPrev := (stopMag_frame s).2.2.2.2.2.2.2.2.2.2.2.2.2.2.2.2.2.2.1
@[simp] theorem stopMag_yawObs (s : St) : (stopMag s).yawObs = s.yawObs := (stopMag_frame s).2.2.2.2.2.2.2.2.2.2.2.2.2.2.2.2.2.2.2.1
@[simp] theorem stopMag_biasObs (s : St) : (stopMag s).biasObs = s.biasObs := (stopMag_frame s).2.2.2.2.2.2.2.2.2.2.2.2.2.2.2.2.2.2.2.2.1
@[simp] theorem stopMag_nBad (s : St) : (stopMag s).nBad = s.nBad := (stopMag_frame s).2.2.2.2.2.2.2.2.2.2.2.2.2.2.2.2.2.2.2.2.2.1
@[simp] theorem stopMag_tAlign (s : St) : (stopMag s).tAlign = s.tAlign := (stopMag_frame s).2.2.2.2.2.2.2.2.2.2.2.2.2.2.2.2.2.2.2.2.2.2.1
@[simp] theorem stopMag_tMov (s : St) : (stopMag s).tMov = s.tMov := (stopMag_frame s).2.2.2.2.2.2.2.2.2.2.2.2.2.2.2.2.2.2.2.2.2.2.2.1
@[simp] theorem stopMag_tNotInh (s : St) : (stopMag s).tNotInh = s.tNotInh := (stopMag_frame s).2.2.2.2.2.2.2.2.2.2.2.2.2.2.2.2.2.2.2.2.2.2.2.2.1
@[simp] theorem stopMag_tYaw (s : St) : (stopMag s).tYaw = s.tYaw := (stopMag_frame s).2.2.2.2.2.2.2.2.2.2.2.2.2.2.2.2.2.2.2.2.2.2.2.2.2.1
@[simp] theorem stopMag_gpsYawFaulty (s : St) : (stopMag s).gpsYawFaulty = s.gpsYawFaulty := (stopMag_frame s).2.2.2.2.2.2.2.2.2.2.2.2.2.2.2.2.2.2.2.2.2.2.2.2.2.2.1
@[simp] theorem stopMag_doGsf (s : St) : (stopMag s).doGsf = s.doGsf := (stopMag_frame s).2.2.2.2.2.2.2.2.2.2.2.2.2.2.2.2.2.2.2.2.2.2.2.2.2.2.2.1
@[simp] theorem stopMag_gsfTime (s : St) : (stopMag s).gsfTime = s.gsfTime := (stopMag_frame s).2.2.2.2.2.2.2.2.2.2.2.2.2.2.2.2.2.2.2.2.2.2.2.2.2.2.2.2.1
@[simp] theorem stopMag_gsfCount (s : St) : (stopMag s).gsfCount = s.gsfCount := (stopMag_frame s).2.2.2.2.2.2.2.2.2.2.2.2.2.2.2.2.2.2.2.2.2.2.2.2.2.2.2.2.2.1
@[simp] theorem stopMag_tPos (s : St) : (stopMag s).tPos = s.tPos := (stopMag_frame s).2.2.2.2.2.2.2.2.2.2.2.2.2.2.2.2.2.2.2.2.2.2.2.2.2.2.2.2.2.2.1
@[simp] theorem stopMag_tDelpos (s : St) : (stopMag s).tDelpos = s.tDelpos := (stopMag_frame s).2.2.2.2.2.2.2.2.2.2.2.2.2.2.2.2.2.2.2.2.2.2.2.2.2.2.2.2.2.2.2.1
@[simp] theorem stopMag_tVel (s : St) : (stopMag s).tVel = s.tVel := (stopMag_frame s).2.2.2.2.2.2.2.2.2.2.2.2.2.2.2.2.2.2.2.2.2.2.2.2.2.2.2.2.2.2.2.2.1
@[simp] theorem stopMag_tOf (s : St) : (stopMag s).tOf = s.tOf := (stopMag_frame s).2.2.2.2.2.2.2.2.2.2.2.2.2.2.2.2.2.2.2.2.2.2.2.2.2.2.2.2.2.2.2.2.2.1
@[simp] theorem stopMag_tBeta (s : St) : (stopMag s).tBeta = s.tBeta := (stopMag_frame s).2.2.2.2.2.2.2.2.2.2.2.2.2.2.2.2.2.2.2.2.2.2.2.2.2.2.2.2.2.2.2.2.2.2.1
@[simp] theorem stopMag_tArsp (s : St) : (stopMag s).tArsp = s.tArsp := (stopMag_frame s).2.2.2.2.2.2.2.2.2.2.2.2.2.2.2.2.2.2.2.2.2.2.2.2.2.2.2.2.2.2.2.2.2.2.2.1
@[simp] theorem stopMag_tFake (s : St) : (stopMag s).tFake = s.tFake := (stopMag_frame s).2.2.2.2.2.2.2.2.2.2.2.2.2.2.2.2.2.2.2.2.2.2.2.2.2.2.2.2.2.2.2.2.2.2.2.2.1
@[simp] theorem stopMag_tGpsYaw (s : St) : (stopMag s).tGpsYaw = s.tGpsYaw := (stopMag_frame s).2.2.2.2.2.2.2.2.2.2.2.2.2.2.2.2.2.2.2.2.2.2.2.2.2.2.2.2.2.2.2.2.2.2.2.2.2.1
@[simp] theorem stopMag_hposPrev (s : St) : (stopMag s).hposPrev = s.hposPrev := (stopMag_frame s).2.2.2.2.2.2.2.2.2.2.2.2.2.2.2.2.2.2.2.2.2.2.2.2.2.2.2.2.2.2.2.2.2.2.2.2.2.2.1
@[simp] theorem stopMag_hposOdom (s : St) : (stopMag s).hposOdom = s.hposOdom := (stopMag_frame s).2.2.2.2.2.2.2.2.2.2.2.2.2.2.2.2.2.2.2.2.2.2.2.2.2.2.2.2.2.2.2.2.2.2.2.2.2.2.2.1
@[simp] theorem stopMag_synth (s : St) : (stopMag s).synth = s.synth := (stopMag_frame s).2.2.2.2.2.2.2.2.2.2.2.2.2.2.2.2.2.2.2.2.2.2.2.2.2.2.2.2.2.2.2.2.2.2.2.2.2.2.2.2.1
@[simp] theorem stopMag_flowReady (s : St) : (stopMag s).flowReady = s.flowReady := (stopMag_frame s).2.2.2.2.2.2.2.2.2.2.2.2.2.2.2.2.2.2.2.2.2.2.2.2.2.2.2.2.2.2.2.2.2.2.2.2.2.2.2.2.2.1
@[simp] theorem stopMag_flowInh (s : St) : (stopMag s).flowInh = s.flowInh := (stopMag_frame s).2.2.2.2.2.2.2.2.2.2.2.2.2.2.2.2.2.2.2.2.2.2.2.2.2.2.2.2.2.2.2.2.2.2.2.2.2.2.2.2.2.2.1
@[simp] theorem stopMag_tGood (s : St) : (stopMag s).tGood = s.tGood := (stopMag_frame s).2.2.2.2.2.2.2.2.2.2.2.2.2.2.2.2.2.2.2.2.2.2.2.2.2.2.2.2.2.2.2.2.2.2.2.2.2.2.2.2.2.2.2.1
@[simp] theorem stopMag_tBad (s : St) : (stopMag s).tBad = s.tBad := (stopMag_frame s).2.2.2.2.2.2.2.2.2.2.2.2.2.2.2.2.2.2.2.2.2.2.2.2.2.2.2.2.2.2.2.2.2.2.2.2.2.2.2.2.2.2.2.2

theorem startMagHdg_frame (s : St) :
    (startMagHdg s).tilt = s.tilt ∧ (startMagHdg s).yawAlign = s.yawAlign ∧ (startMagHdg s).gps = s.gps ∧ (startMagHdg s).optFlow = s.optFlow ∧ (startMagHdg s).magDec = s.magDec ∧ (startMagHdg s).wind = s.wind ∧ (startMagHdg s).evPos = s.evPos ∧ (startMagHdg s).evVel = s.evVel ∧ (startMagHdg s).evYaw = s.evYaw ∧ (startMagHdg s).gpsYaw = s.gpsYaw ∧ (startMagHdg s).magDist = s.magDist ∧ (startMagHdg s).magFault = s.magFault ∧ (startMagHdg s).fuseAspd = s.fuseAspd ∧ (startMagHdg s).magAligned = s.magAligned ∧ (startMagHdg s).magYawReq = s.magYawReq ∧ (startMagHdg s).magInhReq = s.magInhReq ∧ (startMagHdg s).velposReq = s.velposReq ∧ (startMagHdg s).inhibited = s.inhibited ∧ (startMagHdg s).nonMagPrev = s.nonMagPrev ∧ (startMagHdg s).yawObs = s.yawObs ∧ (startMagHdg s).biasObs = s.biasObs ∧ (startMagHdg s).nBad = s.nBad ∧ (startMagHdg s).declCovReset = s.declCovReset ∧ (startMagHdg s).tAlign = s.tAlign ∧ (startMagHdg s).tMov = s.tMov ∧ (startMagHdg s).tNotInh = s.tNotInh ∧ (startMagHdg s).tYaw = s.tYaw ∧ (startMagHdg s).gpsYawFaulty = s.gpsYawFaulty ∧ (startMagHdg s).doGsf = s.doGsf ∧ (startMagHdg s).gsfTime = s.gsfTime ∧ (startMagHdg s).gsfCount = s.gsfCount ∧ (startMagHdg s).tPos = s.tPos ∧ (startMagHdg s).tDelpos = s.tDelpos ∧ (startMagHdg s).tVel = s.tVel ∧ (startMagHdg s).tOf = s.tOf ∧ (startMagHdg s).tBeta = s.tBeta ∧ (startMagHdg s).tArsp = s.tArsp ∧ (startMagHdg s).tFake = s.tFake ∧ (startMagHdg s).tGpsYaw = s.tGpsYaw ∧ (startMagHdg s).hposPrev = s.hposPrev ∧ (startMagHdg s).hposOdom = s.hposOdom ∧ (startMagHdg s).synth = s.synth ∧ (startMagHdg s).flowReady = s.flowReady ∧ (startMagHdg s).flowInh = s.flowInh ∧ (startMagHdg s).tGood = s.tGood ∧ (startMagHdg s).tBad = s.tBad := by
  unfold startMagHdg; simp
@[simp] theorem startMagHdg_tilt (s : St) : (startMagHdg s).tilt = s.tilt := (startMagHdg_frame s).1
@[simp] theorem startMagHdg_yawAlign (s : St) : (startMagHdg s).yawAlign = s.yawAlign := (startMagHdg_frame s).2.1
@[simp] theorem startMagHdg_gps (s : St) : (startMagHdg s).gps = s.gps := (startMagHdg_frame s).2.2.1
@[simp] theorem startMagHdg_optFlow (s : St) : (startMagHdg s).optFlow = s.optFlow := (startMagHdg_frame s).2.2.2.1
@[simp] theorem startMagHdg_magDec (s : St) : (startMagHdg s).magDec = s.magDec := (startMagHdg_frame s).2.2.2.2.1
@[simp] theorem startMagHdg_wind (s : St) : (startMagHdg s).wind = s.wind := (startMagHdg_frame s).2.2.2.2.2.1
@[simp] theorem startMagHdg_evPos (s : St) : (startMagHdg s).evPos = s.evPos := (startMagHdg_frame s).2.2.2.2.2.2.1
@[simp] theorem startMagHdg_evVel (s : St) : (startMagHdg s).evVel = s.evVel := (startMagHdg_frame s).2.2.2.2.2.2.2.1
@[simp] theorem startMagHdg_evYaw (s : St) : (startMagHdg s).evYaw = s.evYaw := (startMagHdg_frame s).2.2.2.2.2.2.2.2.1
@[simp] theorem startMagHdg_gpsYaw (s : St) : (startMagHdg s).gpsYaw = s.gpsYaw := (startMagHdg_frame s).2.2.2.2.2.2.2.2.2.1
@[simp] theorem startMagHdg_magDist (s : St) : (startMagHdg s).magDist = s.magDist := (startMagHdg_frame s).2.2.2.2.2.2.2.2.2.2.1
@[simp] theorem startMagHdg_magFault (s : St) : (startMagHdg s).magFault = s.magFault := (startMagHdg_frame s).2.2.2.2.2.2.2.2.2.2.2.1
@[simp] theorem startMagHdg_fuseAspd (s : St) : (startMagHdg s).fuseAspd = s.fuseAspd := (startMagHdg_frame s).2.2.2.2.2.2.2.2.2.2.2.2.1
@[simp] theorem startMagHdg_magAligned (s : St) : (startMagHdg s).magAligned = s.magAligned := (startMagHdg_frame s).2.2.2.2.2.2.2.2.2.2.2.2.2.1
@[simp] theorem startMagHdg_magYawReq (s : St) : (startMagHdg s).magYawReq = s.magYawReq := (startMagHdg_frame s).2.2.2.2.2.2.2.2.2.2.2.2.2.2.1
@[simp] theorem startMagHdg_magInhReq (s : St) : (startMagHdg s).magInhReq = s.magInhReq := (startMagHdg_frame s).2.2.2.2.2.2.2.2.2.2.2.2.2.2.2.1
@[simp] theorem startMagHdg_velposReq (s : St) : (startMagHdg s).velposReq = s.velposReq := (startMagHdg_frame s).2.2.2.2.2.2.2.2.2.2.2.2.2.2.2.2.1
@[simp] theorem startMagHdg_inhibited (s : St) : (startMagHdg s).inhibited = s.inhibited := (startMagHdg_frame s).2.2.2.2.2.2.2.2.2.2.2.2.2.2.2.2.2.1
@[simp] theorem startMagHdg_nonMagPrev (s : St) : (startMagHdg s).nonMagPrev = s.nonMagPrev := (startMagHdg_frame s).2.2.2.2.2.2.2.2.2.2.2.2.2.2.2.2.2.2.1
@[simp] theorem startMagHdg_yawObs (s : St) : (startMagHdg s).yawObs = s.yawObs := (startMagHdg_frame s).2.2.2.2.2.2.2.2.2.2.2.2.2.2.2.2.2.2.2.1
@[simp] theorem startMagHdg_biasObs (s : St) : (startMagHdg s).biasObs = s.biasObs := (startMagHdg_frame s).2.2.2.2.2.2.2.2.2.2.2.2.2.2.2.2.2.2.2.2.1
@[simp] theorem startMagHdg_nBad (s : St) : (startMagHdg s).nBad = s.nBad := (startMagHdg_frame s).2.2.2.2.2.2.2.2.2.2.2.2.2.2.2.2.2.2.2.2.2.1
@[simp] theorem startMagHdg_declCovReset (s : St) : (startMagHdg s).declCovReset = s.declCovReset := (startMagHdg_frame s).2.2.2.2.2.2.2.2.2.2.2.2.2.2.2.2.2.2.2.2.2.2.1
@[simp] theorem startMagHdg_tAlign (s : St) : (startMagHdg s).tAlign = s.tAlign := (startMagHdg_frame s).2.2.2.2.2.2.2.2.2.2.2.2.2.2.2.2.2.2.2.2.2.2.2.1
@[simp] theorem startMagHdg_tMov (s : St) : (startMagHdg s).tMov = s.tMov := (startMagHdg_frame s).2.2.2.2.2.2.2.2.2.2.2.2.2.2.2.2.2.2.2.2.2.2.2.2.1
@[simp] theorem startMagHdg_tNotInh (s : St) : (startMagHdg s).tNotInh = s.tNotInh := (startMagHdg_frame s).2.2.2.2.2.2.2.2.2.2.2.2.2.2.2.2.2.2.2.2.2.2.2.2.2.1
@[simp] theorem startMagHdg_tYaw (s : St) : (startMagHdg s).tYaw = s.tYaw := (startMagHdg_frame s).2.2.2.2.2.2.2.2.2.2.2.2.2.2.2.2.2.2.2.2.2.2.2.2.2.2.1
@[simp] theorem startMagHdg_gpsYawFaulty (s : St) : (startMagHdg s).gpsYawFaulty = s.gpsYawFaulty := (startMagHdg_frame s).2.2.2.2.2.2.2.2.2.2.2.2.2.2.2.2.2.2.2.2.2.2.2.2.2.2.2.1
@[simp] theorem startMagHdg_doGsf (s : St) : (startMagHdg s).doGsf = s.doGsf := (startMagHdg_frame s).2.2.2.2.2.2.2.2.2.2.2.2.2.2.2.2.2.2.2.2.2.2.2.2.2.2.2.2.1
@[simp] theorem startMagHdg_gsfTime (s : St) : (startMagHdg s).gsfTime = s.gsfTime := (startMagHdg_frame s).2.2.2.2.2.2.2.2.2.2.2.2.2.2.2.2.2.2.2.2.2.2.2.2.2.2.2.2.2.1
@[simp] theorem startMagHdg_gsfCount (s : St) : (startMagHdg s).gsfCount = s.gsfCount := (startMagHdg_frame s).2.2.2.2.2.2.2.2.2.2.2.2.2.2.2.2.2.2.2.2.2.2.2.2.2.2.2.2.2.2.1
@[simp] theorem startMagHdg_tPos (s : St) : (startMagHdg s).tPos = s.tPos := (startMagHdg_frame s).2.2.2.2.2.2.2.2.2.2.2.2.2.2.2.2.2.2.2.2.2.2.2.2.2.2.2.2.2.2.2.1
@[simp] theorem startMagHdg_tDelpos (s : St) : (startMagHdg s).tDelpos = s.tDelpos := (startMagHdg_frame s).2.2.2.2.2.2.2.2.2.2.2.2.2.2.2.2.2.2.2.2.2.2.2.2.2.2.2.2.2.2.2.2.1
@[simp] theorem startMagHdg_tVel (s : St) : (startMagHdg s).tVel = s.tVel := (startMagHdg_frame s).2.2.2.2.2.2.2.2.2.2.2.2.2.2.2.2.2.2.2.2.2.2.2.2.2.2.2.2.2.2.2.2.2.1
@[simp] theorem startMagHdg_tOf (s : St) : (startMagHdg s).tOf = s.tOf := (startMagHdg_frame s).2.2.2.2.2.2.2.2.2.2.2.2.2.2.2.2.2.2.2.2.2.2.2.2.2.2.2.2.2.2.2.2.2.2.1
@[simp] theorem startMagHdg_tBeta (s : St) : (startMagHdg s).tBeta = s.tBeta := (startMagHdg_frame s).2.2.2.2.2.2.2.2.2.2.2.2.2.2.2.2.2.2.2.2.2.2.2.2.2.2.2.2.2.2.2.2.2.2.2.1
@[simp] theorem startMagHdg_tArsp (s : St) : (startMagHdg s).tArsp = s.tArsp := (startMagHdg_frame s).2.2.2.2.2.2.2.2.2.2.2.2.2.2.2.2.2.2.2.2.2.2.2.2.2.2.2.2.2.2.2.2.2.2.2.2.1
@[simp] theorem startMagHdg_tFake (s : St) : (startMagHdg s).tFake = s.tFake := (startMagHdg_frame s).2.2.2.2.2.2.2.2.2.2.2.2.2.2.2.2.2.2.2.2.2.2.2.2.2.2.2.2.2.2.2.2.2.2.2.2.2.1
@[simp] theorem startMagHdg_tGpsYaw (s : St) : (startMagHdg s).tGpsYaw = s.tGpsYaw := (startMagHdg_frame s).2.2.2.2.2.2.2.2.2.2.2.2.2.2.2.2.2.2.2.2.2.2.2.2.2.2.2.2.2.2.2.2.2.2.2.2.2.2.1
@[simp] theorem startMagHdg_hposPrev (s : St) : (startMagHdg s).hposPrev = s.hposPrev := (startMagHdg_frame s).2.2.2.2.2.2.2.2.2.2.2.2.2.2.2.2.2.2.2.2.2.2.2.2.2.2.2.2.2.2.2.2.2.2.2.2.2.2.2.1
@[simp] theorem startMagHdg_hposOdom (s : St) : (startMagHdg s).hposOdom = s.hposOdom := (startMagHdg_frame s).2.2.2.2.2.2.2.2.2.2.2.2.2.2.2.2.2.2.2.2.2.2.2.2.2.2.2.2.2.2.2.2.2.2.2.2.2.2.2.2.1
@[simp] theorem startMagHdg_synth (s : St) : (startMagHdg s).synth = s.synth := (startMagHdg_frame s).2.2.2.2.2.2.2.2.2.2.2.2.2.2.2.2.2.2.2.2.2.2.2.2.2.2.2.2.2.2.2.2.2.2.2.2.2.2.2.2.2.1
@[simp] theorem startMagHdg_flowReady (s : St) : (startMagHdg s).flowReady = s.flowReady := (startMagHdg_frame s).2.2.2.2.2.2.2.2.2.2.2.2.2.2.2.2.2.2.2.2.2.2.2.2.2.2.2.2.2.2.2.2.2.2.2.2.2.2.2.2.2.2.1
@[simp] theorem startMagHdg_flowInh (s : St) : (startMagHdg s).flowInh = s.flowInh := (startMagHdg_frame s).2.2.2.2.2.2.2.2.2.2.2.2.2.2.2.2.2.2.2.2.2.2.2.2.2.2.2.2.2.2.2.2.2.2.2.2.2.2.2.2.2.2.2.1
@[simp] theorem startMagHdg_tGood (s : St) : (startMagHdg s).tGood = s.tGood := (startMagHdg_frame s).2.2.2.2.2.2.2.2.2.2.2.2.2.2.2.2.2.2.2.2.2.2.2.2.2.2.2.2.2.2.2.2.2.2.2.2.2.2.2.2.2.2.2.2.1
@[simp] theorem startMagHdg_tBad (s : St) : (startMagHdg s).tBad = s.tBad := (startMagHdg_frame s).2.2.2.2.2.2.2.2.2.2.2.2.2.2.2.2.2.2.2.2.2.2.2.2.2.2.2.2.2.2.2.2.2.2.2.2.2.2.2.2.2.2.2.2.2

theorem startMag3D_frame (s : St) :
    (startMag3D s).tilt = s.tilt ∧ (startMag3D s).yawAlign = s.yawAlign ∧ (startMag3D s).gps = s.gps ∧ (startMag3D s).optFlow = s.optFlow ∧ (startMag3D s).magDec = s.magDec ∧ (startMag3D s).wind = s.wind ∧ (startMag3D s).evPos = s.evPos ∧ (startMag3D s).evVel = s.evVel ∧ (startMag3D s).evYaw = s.evYaw ∧ (startMag3D s).gpsYaw = s.gpsYaw ∧ (startMag3D s).magDist = s.magDist ∧ (startMag3D s).magFault = s.magFault ∧ (startMag3D s).fuseAspd = s.fuseAspd ∧ (startMag3D s).magAligned = s.magAligned ∧ (startMag3D s).magYawReq = s.magYawReq ∧ (startMag3D s).magInhReq = s.magInhReq ∧ (startMag3D s).velposReq = s.velposReq ∧ (startMag3D s).inhibited = s.inhibited ∧ (startMag3D s).nonMagPrev = s.nonMagPrev ∧ (startMag3D s).yawObs = s.yawObs ∧ (startMag3D s).biasObs = s.biasObs ∧ (startMag3D s).nBad = s.nBad ∧ (startMag3D s).declCovReset = s.declCovReset ∧ (startMag3D s).tAlign = s.tAlign ∧ (startMag3D s).tMov = s.tMov ∧ (startMag3D s).tNotInh = s.tNotInh ∧ (startMag3D s).tYaw = s.tYaw ∧ (startMag3D s).gpsYawFaulty = s.gpsYawFaulty ∧ (startMag3D s).doGsf = s.doGsf ∧ (startMag3D s).gsfTime = s.gsfTime ∧ (startMag3D s).gsfCount = s.gsfCount ∧ (startMag3D s).tPos = s.tPos ∧ (startMag3D s).tDelpos = s.tDelpos ∧ (startMag3D s).tVel = s.tVel ∧ (startMag3D s).tOf = s.tOf ∧ (startMag3D s).tBeta = s.tBeta ∧ (startMag3D s).tArsp = s.tArsp ∧ (startMag3D s).tFake = s.tFake ∧ (startMag3D s).tGpsYaw = s.tGpsYaw ∧ (startMag3D s).hposPrev = s.hposPrev ∧ (startMag3D s).hposOdom = s.hposOdom ∧ (startMag3D s).synth = s.synth ∧ (startMag3D s).flowReady = s.flowReady ∧ (startMag3D s).flowInh = s.flowInh ∧ (startMag3D s).tGood = s.tGood ∧ (startMag3D s).tBad = s.tBad := by
  unfold startMag3D; (try dsimp only); split_ifs <;> simp [*]
@[simp] theorem startMag3D_tilt (s : St) : (startMag3D s).tilt = s.tilt := (startMag3D_frame s).1
@[simp] theorem startMag3D_yawAlign (s : St) : (startMag3D s).yawAlign = s.yawAlign := (startMag3D_frame s).2.1
@[simp] theorem startMag3D_gps (s : St) : (startMag3D s).gps = s.gps := (startMag3D_frame s).2.2.1
@[simp] theorem startMag3D_optFlow (s : St) : (startMag3D s).optFlow = s.optFlow := (startMag3D_frame s).2.2.2.1
@[simp] theorem startMag3D_magDec (s : St) : (startMag3D s).magDec = s.magDec := (startMag3D_frame s).2.2.2.2.1
@[simp] theorem startMag3D_wind (s : St) : (startMag3D s).wind = s.wind := (startMag3D_frame s).2.2.2.2.2.1
@[simp] theorem startMag3D_evPos (s : St) : (startMag3D s).evPos = s.evPos := (startMag3D_frame s).2.2.2.2.2.2.1
@[simp] theorem startMag3D_evVel (s : St) : (startMag3D s).evVel = s.evVel := (startMag3D_frame s).2.2.2.2.2.2.2.1
@[simp] theorem startMag3D_evYaw (s : St) : (startMag3D s).evYaw = s.evYaw := (startMag3D_frame s).2.2.2.2.2.2.2.2.1
@[simp] theorem startMag3D_gpsYaw (s : St) : (startMag3D s).gpsYaw = s.gpsYaw := (startMag3D_frame s).2.2.2.2.2.2.2.2.2.1
@[simp] theorem startMag3D_magDist (s : St) : (startMag3D s).magDist = s.magDist := (startMag3D_frame s).2.2.2.2.2.2.2.2.2.2.1
@[simp] theorem startMag3D_magFault (s : St) : (startMag3D s).magFault = s.magFault := (startMag3D_frame s).2.2.2.2.2.2.2.2.2.2.2.1
@[simp] theorem startMag3D_fuseAspd (s : St) : (startMag3D s).fuseAspd = s.fuseAspd := (startMag3D_frame s).2.2.2.2.2.2.2.2.2.2.2.2.1
@[simp] theorem startMag3D_magAligned (s : St) : (startMag3D s).magAligned = s.magAligned := (startMag3D_frame s).2.2.2.2.2.2.2.2.2.2.2.2.2.1
@[simp] theorem startMag3D_magYawReq (s : St) : (startMag3D s).magYawReq = s.magYawReq := (startMag3D_frame s).2.2.2.2.2.2.2.2.2.2.2.2.2.2.1
@[simp] theorem startMag3D_magInhReq (s : St) : (startMag3D s).magInhReq = s.magInhReq := (startMag3D_frame s).2.2.2.2.2.2.2.2.2.2.2.2.2.2.2.1
@[simp] theorem startMag3D_velposReq (s : St) : (startMag3D s).velposReq = s.velposReq := (startMag3D_frame s).2.2.2.2.2.2.2.2.2.2.2.2.2.2.2.2.1
@[simp] theorem startMag3D_inhibited (s : St) : (startMag3D s).inhibited = s.inhibited := (startMag3D_frame s).2.2.2.2.2.2.2.2.2.2.2.2.2.2.2.2.2.1
@[simp] theorem startMag3D_nonMagPrev (s : St) : (startMag3D s).nonMagPrev = s.nonMagPrev := (startMag3D_frame s).2.2.2.2.2.2.2.2.2.2.2.2.2.2.2.2.2.2.1
@[simp] theorem startMag3D_yawObs (s : St) : (startMag3D s).yawObs = s.yawObs := (startMag3D_frame s).2.2.2.2.2.2.2.2.2.2.2.2.2.2.2.2.2.2.2.1
@[simp] theorem startMag3D_biasObs (s : St) : (startMag3D s).biasObs = s.biasObs := (startMag3D_frame s).2.2.2.2.2.2.2.2.2.2.2.2.2.2.2.2.2.2.2.2.1
@[simp] theorem startMag3D_nBad (s : St) : (startMag3D s).nBad = s.nBad := (startMag3D_frame s).2.2.2.2.2.2.2.2.2.2.2.2.2.2.2.2.2.2.2.2.2.1
@[simp] theorem startMag3D_declCovReset (s : St) : (startMag3D s).declCovReset = s.declCovReset := (startMag3D_frame s).2.2.2.2.2.2.2.2.2.2.2.2.2.2.2.2.2.2.2.2.2.2.1
@[simp] theorem startMag3D_tAlign (s : St) : (startMag3D s).tAlign = s.tAlign := (startMag3D_frame s).2.2.2.2.2.2.2.2.2.2.2.2.2.2.2.2.2.2.2.2.2.2.2.1
@[simp] theorem startMag3D_tMov (s : St) : (startMag3D s).tMov = s.tMov := (startMag3D_frame s).2.2.2.2.2.2.2.2.2.2.2.2.2.2.2.2.2.2.2.2.2.2.2.2.1
@[simp] theorem startMag3D_tNotInh (s : St) : (startMag3D s).tNotInh = s.tNotInh := (startMag3D_frame s).2.2.2.2.2.2.2.2.2.2.2.2.2.2.2.2.2.2.2.2.2.2.2.2.2.1
@[simp] theorem startMag3D_tYaw (s : St) : (startMag3D s).tYaw = s.tYaw := (startMag3D_frame s).2.2.2.2.2.2.2.2.2.2.2.2.2.2.2.2.2.2.2.2.2.2.2.2.2.2.1
@[simp] theorem startMag3D_gpsYawFaulty (s : St) : (startMag3D s).gpsYawFaulty = s.gpsYawFaulty := (startMag3D_frame s).2.2.2.2.2.2.2.2.2.2.2.2.2.2.2.2.2.2.2.2.2.2.2.2.2.2.2.1
@[simp] theorem startMag3D_doGsf (s : St) : (startMag3D s).doGsf = s.doGsf := (startMag3D_frame s).2.2.2.2.2.2.2.2.2.2.2.2.2.2.2.2.2.2.2.2.2.2.2.2.2.2.2.2.1
@[simp] theorem startMag3D_gsfTime (s : St) : (startMag3D s).gsfTime = s.gsfTime := (startMag3D_frame s).2.2.2.2.2.2.2.2.2.2.2.2.2.2.2.2.2.2.2.2.2.2.2.2.2.2.2.2.2.1
@[simp] theorem startMag3D_gsfCount (s : St) : (startMag3D s).gsfCount = s.gsfCount := (startMag3D_frame s).2.2.2.2.2.2.2.2.2.2.2.2.2.2.2.2.2.2.2.2.2.2.2.2.2.2.2.2.2.2.1
@[simp] theorem startMag3D_tPos (s : St) : (startMag3D s).tPos = s.tPos := (startMag3D_frame s).2.2.2.2.2.2.2.2.2.2.2.2.2.2.2.2.2.2.2.2.2.2.2.2.2.2.2.2.2.2.2.1
@[simp] theorem startMag3D_tDelpos (s : St) : (startMag3D s).tDelpos = s.tDelpos := (startMag3D_frame s).2.2.2.2.2.2.2.2.2.2.2.2.2.2.2.2.2.2.2.2.2.2.2.2.2.2.2.2.2.2.2.2.1
@[simp] theorem startMag3D_tVel (s : St) : (startMag3D s).tVel = s.tVel := (startMag3D_frame s).2.2.2.2.2.2.2.2.2.2.2.2.2.2.2.2.2.2.2.2.2.2.2.2.2.2.2.2.2.2.2.2.2.1
@[simp] theorem startMag3D_tOf (s : St) : (startMag3D s).tOf = s.tOf := (startMag3D_frame s).2.2.2.2.2.2.2.2.2.2.2.2.2.2.2.2.2.2.2.2.2.2.2.2.2.2.2.2.2.2.2.2.2.2.1
@[simp] theorem startMag3D_tBeta (s : St) : (startMag3D s).tBeta = s.tBeta := (startMag3D_frame s).2.2.2.2.2.2.2.2.2.2.2.2.2.2.2.2.2.2.2.2.2.2.2.2.2.2.2.2.2.2.2.2.2.2.2.1
@[simp] theorem startMag3D_tArsp (s : St) : (startMag3D s).tArsp = s.tArsp := (startMag3D_frame s).2.2.2.2.2.2.2.2.2.2.2.2.2.2.2.2.2.2.2.2.2.2.2.2.2.2.2.2.2.2.2.2.2.2.2.2.1
@[simp] theorem startMag3D_tFake (s : St) : (startMag3D s).tFake = s.tFake := (startMag3D_frame s).2.2.2.2.2.2.2.2.2.2.2.2.2.2.2.2.2.2.2.2.2.2.2.2.2.2.2.2.2.2.2.2.2.2.2.2.2.1
@[simp] theorem startMag3D_tGpsYaw (s : St) : (startMag3D s).tGpsYaw = s.tGpsYaw := (startMag3D_frame s).2.2.2.2.2.2.2.2.2.2.2.2.2.2.2.2.2.2.2.2.2.2.2.2.2.2.2.2.2.2.2.2.2.2.2.2.2.2.1
@[simp] theorem startMag3D_hposPrev (s : St) : (startMag3D s).hposPrev = s.hposPrev := (startMag3D_frame s).2.2.2.2.2.2.2.2.2.2.2.2.2.2.2.2.2.2.2.2.2.2.2.2.2.2.2.2.2.2.2.2.2.2.2.2.2.2.2.1
@[simp] theorem startMag3D_hposOdom (s : St) : (startMag3D s).hposOdom = s.hposOdom := (startMag3D_frame s).2.2.2.2.2.2.2.2.2.2.2.2.2.2.2.2.2.2.2.2.2.2.2.2.2.2.2.2.2.2.2.2.2.2.2.2.2.2.2.2.1
@[simp] theorem startMag3D_synth (s : St) : (startMag3D s).synth = s.synth := (startMag3D_frame s).2.2.2.2.2.2.2.2.2.2.2.2.2.2.2.2.2.2.2.2.2.2.2.2.2.2.2.2.2.2.2.2.2.2.2.2.2.2.2.2.2.1
@[simp] theorem startMag3D_flowReady (s : St) : (startMag3D s).flowReady = s.flowReady := (startMag3D_frame s).2.2.2.2.2.2.2.2.2.2.2.2.2.2.2.2.2.2.2.2.2.2.2.2.2.2.2.2.2.2.2.2.2.2.2.2.2.2.2.2.2.2.1
@[simp] theorem startMag3D_flowInh (s : St) : (startMag3D s).flowInh = s.flowInh := (startMag3D_frame s).2.2.2.2.2.2.2.2.2.2.2.2.2.2.2.2.2.2.2.2.2.2.2.2.2.2.2.2.2.2.2.2.2.2.2.2.2.2.2.2.2.2.2.1
@[simp] theorem startMag3D_tGood (s : St) : (startMag3D s).tGood = s.tGood := (startMag3D_frame s).2.2.2.2.2.2.2.2.2.2.2.2.2.2.2.2.2.2.2.2.2.2.2.2.2.2.2.2.2.2.2.2.2.2.2.2.2.2.2.2.2.2.2.2.1
@[simp] theorem startMag3D_tBad (s : St) : (startMag3D s).tBad = s.tBad := (startMag3D_frame s).2.2.2.2.2.2.2.2.2.2.2.2.2.2.2.2.2.2.2.2.2.2.2.2.2.2.2.2.2.2.2.2.2.2.2.2.2.2.2.2.2.2.2.2.2

theorem resetMagStates_frame (s : St) :
    (resetMagStates s).tilt = s.tilt ∧ (resetMagStates s).yawAlign = s.yawAlign ∧ (resetMagStates s).gps = s.gps ∧ (resetMagStates s).optFlow = s.optFlow ∧ (resetMagStates s).magHdg = s.magHdg ∧ (resetMagStates s).mag3D = s.mag3D ∧ (resetMagStates s).magDec = s.magDec ∧ (resetMagStates s).wind = s.wind ∧ (resetMagStates s).evPos = s.evPos ∧ (resetMagStates s).evVel = s.evVel ∧ (resetMagStates s).evYaw = s.evYaw ∧ (resetMagStates s).gpsYaw = s.gpsYaw ∧ (resetMagStates s).magDist = s.magDist ∧ (resetMagStates s).magFault = s.magFault ∧ (resetMagStates s).fuseAspd = s.fuseAspd ∧ (resetMagStates s).magAligned = s.magAligned ∧ (resetMagStates s).magYawReq = s.magYawReq ∧ (resetMagStates s).magInhReq = s.magInhReq ∧ (resetMagStates s).velposReq = s.velposReq ∧ (resetMagStates s).inhibited = s.inhibited ∧ (resetMagStates s).nonMagPrev = s.nonMagPrev ∧ (resetMagStates s).yawObs = s.yawObs ∧ (resetMagStates s).biasObs = s.biasObs ∧ (resetMagStates s).nBad = s.nBad ∧ (resetMagStates s).tAlign = s.tAlign ∧ (resetMagStates s).tMov = s.tMov ∧ (resetMagStates s).tNotInh = s.tNotInh ∧ (resetMagStates s).tYaw = s.tYaw ∧ (resetMagStates s).gpsYawFaulty = s.gpsYawFaulty ∧ (resetMagStates s).doGsf = s.doGsf ∧ (resetMagStates s).gsfTime = s.gsfTime ∧ (resetMagStates s).gsfCount = s.gsfCount ∧ (resetMagStates s).tPos = s.tPos ∧ (resetMagStates s).tDelpos = s.tDelpos ∧ (resetMagStates s).tVel = s.tVel ∧ (resetMagStates s).tOf = s.tOf ∧ (resetMagStates s).tBeta = s.tBeta ∧ (resetMagStates s).tArsp = s.tArsp ∧ (resetMagStates s).tFake = s.tFake ∧ (resetMagStates s).tGpsYaw = s.tGpsYaw ∧ (resetMagStates s).hposPrev = s.hposPrev ∧ (resetMagStates s).hposOdom = s.hposOdom ∧ (resetMagStates s).synth = s.synth ∧ (resetMagStates s).flowReady = s.flowReady ∧ (resetMagStates s).flowInh = s.flowInh ∧ (resetMagStates s).tGood = s.tGood ∧ (resetMagStates s).tBad = s.tBad := by
  unfold resetMagStates; (try dsimp only); split_ifs <;> simp [*]
@[simp] theorem resetMagStates_tilt (s : St) : (resetMagStates s).tilt = s.tilt := (resetMagStates_frame s).1
@[simp] theorem resetMagStates_yawAlign (s : St) : (resetMagStates s).yawAlign = s.yawAlign := (resetMagStates_frame s).2.1
@[simp] theorem resetMagStates_gps (s : St) : (resetMagStates s).gps = s.gps := (resetMagStates_frame s).2.2.1
@[simp] theorem resetMagStates_optFlow (s : St) : (resetMagStates s).optFlow = s.optFlow := (resetMagStates_frame s).2.2.2.1
@[simp] theorem resetMagStates_magHdg (s : St) : (resetMagStates s).magHdg = s.magHdg := (resetMagStates_frame s).2.2.2.2.1
@[simp] theorem resetMagStates_mag3D (s : St) : (resetMagStates s).mag3D = s.mag3D := (resetMagStates_frame s).2.2.2.2.2.1
@[simp] theorem resetMagStates_magDec (s : St) : (resetMagStates s).magDec = s.magDec := (resetMagStates_frame s).2.2.2.2.2.2.1
@[simp] theorem resetMagStates_wind (s : St) : (resetMagStates s).wind = s.wind := (resetMagStates_frame s).2.2.2.2.2.2.2.1
@[simp] theorem resetMagStates_evPos (s : St) : (resetMagStates s).evPos = s.evPos := (resetMagStates_frame s).2.2.2.2.2.2.2.2.1
@[simp] theorem resetMagStates_evVel (s : St) : (resetMagStates s).evVel = s.evVel := (resetMagStates_frame s).2.2.2.2.2.2.2.2.2.1
@[simp] theorem resetMagStates_evYaw (s : St) : (resetMagStates s).evYaw = s.evYaw := (resetMagStates_frame s).2.2.2.2.2.2.2.2.2.2.1
@[simp] theorem resetMagStates_gpsYaw (s : St) : (resetMagStates s).gpsYaw = s.gpsYaw := (resetMagStates_frame s).2.2.2.2.2.2.2.2.2.2.2.1
@[simp] theorem resetMagStates_magDist (s : St) : (resetMagStates s).magDist = s.magDist := (resetMagStates_frame s).2.2.2.2.2.2.2.2.2.2.2.2.1
@[simp] theorem resetMagStates_magFault (s : St) : (resetMagStates s).magFault = s.magFault := (resetMagStates_frame s).2.2.2.2.2.2.2.2.2.2.2.2.2.1
@[simp] theorem resetMagStates_fuseAspd (s : St) : (resetMagStates s).fuseAspd = s.fuseAspd := (resetMagStates_frame s).2.2.2.2.2.2.2.2.2.2.2.2.2.2.1
@[simp] theorem resetMagStates_magAligned (s : St) : (resetMagStates s).magAligned = s.magAligned := (resetMagStates_frame s).2.2.2.2.2.2.2.2.2.2.2.2.2.2.2.1
@[simp] theorem resetMagStates_magYawReq (s : St) : (resetMagStates s).magYawReq = s.magYawReq := (resetMagStates_frame s).2.2.2.2.2.2.2.2.2.2.2.2.2.2.2.2.1
@[simp] theorem resetMagStates_magInhReq (s : St) : (resetMagStates s).magInhReq = s.magInhReq := (resetMagStates_frame s).2.2.2.2.2.2.2.2.2.2.2.2.2.2.2.2.2.1
@[simp] theorem resetMagStates_velposReq (s : St) : (resetMagStates s).velposReq = s.velposReq := (resetMagStates_frame s).2.2.2.2.2.2.2.2.2.2.2.2.2.2.2.2.2.2.1
@[simp] theorem resetMagStates_inhibited (s : St) : (resetMagStates s).inhibited = s.inhibited := (resetMagStates_frame s).2.2.2.2.2.2.2.2.2.2.2.2.2.2.2.2.2.2.2.1
@[simp] theorem resetMagStates_nonMagPrev (s : St) : (resetMagStates s).nonMagPrev = s.nonMagPrev := (resetMagStates_frame s).2.2.2.2.2.2.2.2.2.2.2.2.2.2.2.2.2.2.2.2.1
@[simp] theorem resetMagStates_yawObs (s : St) : (resetMagStates s).yawObs = s.yawObs := (resetMagStates_frame s).2.2.2.2.2.2.2.2.2.2.2.2.2.2.2.2.2.2.2.2.2.1
@[simp] theorem resetMagStates_biasObs (s : St) : (resetMagStates s).biasObs = s.biasObs := (resetMagStates_frame s).2.2.2.2.2.2.2.2.2.2.2.2.2.2.2.2.2.2.2.2.2.2.1
@[simp] theorem resetMagStates_nBad (s : St) : (resetMagStates s).nBad = s.nBad := (resetMagStates_frame s).2.2.2.2.2.2.2.2.2.2.2.2.2.2.2.2.2.2.2.2.2.2.2.1
@[simp] theorem resetMagStates_tAlign (s : St) : (resetMagStates s).tAlign = s.tAlign := (resetMagStates_frame s).2.2.2.2.2.2.2.2.2.2.2.2.2.2.2.2.2.2.2.2.2.2.2.2.1
@[simp] theorem resetMagStates_tMov (s : St) : (resetMagStates s).tMov = s.tMov := (resetMagStates_frame s).2.2.2.2.2.2.2.2.2.2.2.2.2.2.2.2.2.2.2.2.2.2.2.2.2.1
@[simp] theorem resetMagStates_tNotInh (s : St) : (resetMagStates s).tNotInh = s.tNotInh := (resetMagStates_frame s).2.2.2.2.2.2.2.2.2.2.2.2.2.2.2.2.2.2.2.2.2.2.2.2.2.2.1
@[simp] theorem resetMagStates_tYaw (s : St) : (resetMagStates s).tYaw = s.tYaw := (resetMagStates_frame s).2.2.2.2.2.2.2.2.2.2.2.2.2.2.2.2.2.2.2.2.2.2.2.2.2.2.2.1
@[simp] theorem resetMagStates_gpsYawFaulty (s : St) : (resetMagStates s).gpsYawFaulty = s.gpsYawFaulty := (resetMagStates_frame s).2.2.2.2.2.2.2.2.2.2.2.2.2.2.2.2.2.2.2.2.2.2.2.2.2.2.2.2.1
@[simp] theorem resetMagStates_doGsf (s : St) : (resetMagStates s).doGsf = s.doGsf := (resetMagStates_frame s).2.2.2.2.2.2.2.2.2.2.2.2.2.2.2.2.2.2.2.2.2.2.2.2.2.2.2.2.2.1
@[simp] theorem resetMagStates_gsfTime (s : St) : (resetMagStates s).gsfTime = s.gsfTime := (resetMagStates_frame s).2.2.2.2.2.2.2.2.2.2.2.2.2.2.2.2.2.2.2.2.2.2.2.2.2.2.2.2.2.2.1
@[simp] theorem resetMagStates_gsfCount (s : St) : (resetMagStates s).gsfCount = s.gsfCount := (resetMagStates_frame s).2.2.2.2.2.2.2.2.2.2.2.2.2.2.2.2.2.2.2.2.2.2.2.2.2.2.2.2.2.2.2.1
@[simp] theorem resetMagStates_tPos (s : St) : (resetMagStates s).tPos = s.tPos := (resetMagStates_frame s).2.2.2.2.2.2.2.2.2.2.2.2.2.2.2.2.2.2.2.2.2.2.2.2.2.2.2.2.2.2.2.2.1
@[simp] theorem resetMagStates_tDelpos (s : St) : (resetMagStates s).tDelpos = s.tDelpos := (resetMagStates_frame s).2.2.2.2.2.2.2.2.2.2.2.2.2.2.2.2.2.2.2.2.2.2.2.2.2.2.2.2.2.2.2.2.2.1
@[simp] theorem resetMagStates_tVel (s : St) : (resetMagStates s).tVel = s.tVel := (resetMagStates_frame s).2.2.2.2.2.2.2.2.2.2.2.2.2.2.2.2.2.2.2.2.2.2.2.2.2.2.2.2.2.2.2.2.2.2.1
@[simp] theorem resetMagStates_tOf (s : St) : (resetMagStates s).tOf = s.tOf := (resetMagStates_frame s).2.2.2.2.2.2.2.2.2.2.2.2.2.2.2.2.2.2.2.2.2.2.2.2.2.2.2.2.2.2.2.2.2.2.2.1
@[simp] theorem resetMagStates_tBeta (s : St) : (resetMagStates s).tBeta = s.tBeta := (resetMagStates_frame s).2.2.2.2.2.2.2.2.2.2.2.2.2.2.2.2.2.2.2.2.2.2.2.2.2.2.2.2.2.2.2.2.2.2.2.2.1
@[simp] theorem resetMagStates_tArsp (s : St) : (resetMagStates s).tArsp = s.tArsp := (resetMagStates_frame s).2.2.2.2.2.2.2.2.2.2.2.2.2.2.2.2.2.2.2.2.2.2.2.2.2.2.2.2.2.2.2.2.2.2.2.2.2.1
@[simp] theorem resetMagStates_tFake (s : St) : (resetMagStates s).tFake = s.tFake := (resetMagStates_frame s).2.2.2.2.2.2.2.2.2.2.2.2.2.2.2.2.2.2.2.2.2.2.2.2.2.2.2.2.2.2.2.2.2.2.2.2.2.2.1
@[simp] theorem resetMagStates_tGpsYaw (s : St) : (resetMagStates s).tGpsYaw = s.tGpsYaw := (resetMagStates_frame s).2.2.2.2.2.2.2.2.2.2.2.2.2.2.2.2.2.2.2.2.2.2.2.2.2.2.2.2.2.2.2.2.2.2.2.2.2.2.2.1
@[simp] theorem resetMagStates_hposPrev (s : St) : (resetMagStates s).hposPrev = s.hposPrev := (resetMagStates_frame s).2.2.2.2.2.2.2.2.2.2.2.2.2.2.2.2.2.2.2.2.2.2.2.2.2.2.2.2.2.2.2.2.2.2.2.2.2.2.2.2.1
@[simp] theorem resetMagStates_hposOdom (s : St) : (resetMagStates s).hposOdom = s.hposOdom := (resetMagStates_frame s).2.2.2.2.2.2.2.2.2.2.2.2.2.2.2.2.2.2.2.2.2.2.2.2.2.2.2.2.2.2.2.2.2.2.2.2.2.2.2.2.2.1
@[simp] theorem resetMagStates_synth (s : St) : (resetMagStates s).synth = s.synth := (resetMagStates_frame s).2.2.2.2.2.2.2.2.2.2.2.2.2.2.2.2.2.2.2.2.2.2.2.2.2.2.2.2.2.2.2.2.2.2.2.2.2.2.2.2.2.2.1
@[simp] theorem resetMagStates_flowReady (s : St) : (resetMagStates s).flowReady = s.flowReady := (resetMagStates_frame s).2.2.2.2.2.2.2.2.2.2.2.2.2.2.2.2.2.2.2.2.2.2.2.2.2.2.2.2.2.2.2.2.2.2.2.2.2.2.2.2.2.2.2.1
@[simp] theorem resetMagStates_flowInh (s : St) : (resetMagStates s).flowInh = s.flowInh := (resetMagStates_frame s).2.2.2.2.2.2.2.2.2.2.2.2.2.2.2.2.2.2.2.2.2.2.2.2.2.2.2.2.2.2.2.2.2.2.2.2.2.2.2.2.2.2.2.2.1
@[simp] theorem resetMagStates_tGood (s : St) : (resetMagStates s).tGood = s.tGood := (resetMagStates_frame s).2.2.2.2.2.2.2.2.2.2.2.2.2.2.2.2.2.2.2.2.2.2.2.2.2.2.2.2.2.2.2.2.2.2.2.2.2.2.2.2.2.2.2.2.2.1
@[simp] theorem resetMagStates_tBad (s : St) : (resetMagStates s).tBad = s.tBad := (resetMagStates_frame s).2.2.2.2.2.2.2.2.2.2.2.2.2.2.2.2.2.2.2.2.2.2.2.2.2.2.2.2.2.2.2.2.2.2.2.2.2.2.2.2.2.2.2.2.2.2

theorem resetVel_frame (x : In) (s : St) :
    (resetVel x s).tilt = s.tilt ∧ (resetVel x s).yawAlign = s.yawAlign ∧ (resetVel x s).gps = s.gps ∧ (resetVel x s).optFlow = s.optFlow ∧ (resetVel x s).magHdg = s.magHdg ∧ (resetVel x s).mag3D = s.mag3D ∧ (resetVel x s).magDec = s.magDec ∧ (resetVel x s).wind = s.wind ∧ (resetVel x s).evPos = s.evPos ∧ (resetVel x s).evVel = s.evVel ∧ (resetVel x s).evYaw = s.evYaw ∧ (resetVel x s).gpsYaw = s.gpsYaw ∧ (resetVel x s).magDist = s.magDist ∧ (resetVel x s).magFault = s.magFault ∧ (resetVel x s).fuseAspd = s.fuseAspd ∧ (resetVel x s).magAligned = s.magAligned ∧ (resetVel x s).magYawReq = s.magYawReq ∧ (resetVel x s).magInhReq = s.magInhReq ∧ (resetVel x s).velposReq = s.velposReq ∧ (resetVel x s).inhibited = s.inhibited ∧ (resetVel x s).nonMagPrev = s.nonMagPrev ∧ (resetVel x s).yawObs = s.yawObs ∧ (resetVel x s).biasObs = s.biasObs ∧ (resetVel x s).nBad = s.nBad ∧ (resetVel x s).declCovReset = s.declCovReset ∧ (resetVel x s).tAlign = s.tAlign ∧ (resetVel x s).tMov = s.tMov ∧ (resetVel x s).tNotInh = s.tNotInh ∧ (resetVel x s).tYaw = s.tYaw ∧ (resetVel x s).gpsYawFaulty = s.gpsYawFaulty ∧ (resetVel x s).doGsf = s.doGsf ∧ (resetVel x s).gsfTime = s.gsfTime ∧ (resetVel x s).gsfCount = s.gsfCount ∧ (resetVel x s).tPos = s.tPos ∧ (resetVel x s).tDelpos = s.tDelpos ∧ (resetVel x s).tVel = s.tVel ∧ (resetVel x s).tOf = s.tOf ∧ (resetVel x s).tBeta = s.tBeta ∧ (resetVel x s).tArsp = s.tArsp ∧ (resetVel x s).tFake = s.tFake ∧ (resetVel x s).tGpsYaw = s.tGpsYaw ∧ (resetVel x s).hposPrev = s.hposPrev ∧ (resetVel x s).hposOdom = s.hposOdom ∧ (resetVel x s).synth = s.synth ∧ (resetVel x s).flowReady = s.flowReady ∧ (resetVel x s).flowInh = s.flowInh ∧ (resetVel x s).tGood = s.tGood ∧ (resetVel x s).tBad = s.tBad := by
  unfold resetVel; simp
@[simp] theorem resetVel_tilt (x : In) (s : St) : (resetVel x s).tilt = s.tilt := (resetVel_frame x s).1
@[simp] theorem resetVel_yawAlign (x : In) (s : St) : (resetVel x s).yawAlign = s.yawAlign := (resetVel_frame x s).2.1
@[simp] theorem resetVel_gps (x : In) (s : St) : (resetVel x s).gps = s.gps := (resetVel_frame x s).2.2.1
@[simp] theorem resetVel_optFlow (x : In) (s : St) : (resetVel x s).optFlow = s.optFlow := (resetVel_frame x s).2.2.2.1
@[simp] theorem resetVel_magHdg (x : In) (s : St) : (resetVel x s).magHdg = s.magHdg := (resetVel_frame x s).2.2.2.2.1
@[simp] theorem resetVel_mag3D (x : In) (s : St) : (resetVel x s).mag3D = s.mag3D := (resetVel_frame x s).2.2.2.2.2.1
@[simp] theorem resetVel_magDec (x : In) (s : St) : (resetVel x s).magDec = s.magDec := (resetVel_frame x s).2.2.2.2.2.2.1
@[simp] theorem resetVel_wind (x : In) (s : St) : (resetVel x s).wind = s.wind := (resetVel_frame x s).2.2.2.2.2.2.2.1
@[simp] theorem resetVel_evPos (x : In) (s : St) : (resetVel x s).evPos = s.evPos := (resetVel_frame x s).2.2.2.2.2.2.2.2.1
@[simp] theorem resetVel_evVel (x : In) (s : St) : (resetVel x s).evVel = s.evVel := (resetVel_frame x s).2.2.2.2.2.2.2.2.2.1
@[simp] theorem resetVel_evYaw (x : In) (s : St) : (resetVel x s).evYaw = s.evYaw := (resetVel_frame x s).2.2.2.2.2.2.2.2.2.2.1
@[simp] theorem resetVel_gpsYaw (x : In) (s : St) : (resetVel x s).gpsYaw = s.gpsYaw := (resetVel_frame x s).2.2.2.2.2.2.2.2.2.2.2.1
@[simp] theorem resetVel_magDist (x : In) (s : St) : (resetVel x s).magDist = s.magDist := (resetVel_frame x s).2.2.2.2.2.2.2.2.2.2.2.2.1
@[simp] theorem resetVel_magFault (x : In) (s : St) : (resetVel x s).magFault = s.magFault := (resetVel_frame x s).2.2.2.2.2.2.2.2.2.2.2.2.2.1
@[simp] theorem resetVel_fuseAspd (x : In) (s : St) : (resetVel x s).fuseAspd = s.fuseAspd := (resetVel_frame x s).2.2.2.2.2.2.2.2.2.2.2.2.2.2.1
@[simp] theorem resetVel_magAligned (x : In) (s : St) : (resetVel x s).magAligned = s.magAligned := (resetVel_frame x s).2.2.2.2.2.2.2.2.2.2.2.2.2.2.2.1
@[simp] theorem resetVel_magYawReq (x : In) (s : St) : (resetVel x s).magYawReq = s.magYawReq := (resetVel_frame x s).2.2.2.2.2.2.2.2.2.2.2.2.2.2.2.2.1
@[simp] theorem resetVel_magInhReq (x : In) (s : St) : (resetVel x s).magInhReq = s.magInhReq := (resetVel_frame x s).2.2.2.2.2.2.2.2.2.2.2.2.2.2.2.2.2.1
@[simp] theorem resetVel_velposReq (x : In) (s : St) : (resetVel x s).velposReq = s.velposReq := (resetVel_frame x s).2.2.2.2.2.2.2.2.2.2.2.2.2.2.2.2.2.2.1
@[simp] theorem resetVel_inhibited (x : In) (s : St) : (resetVel x s).inhibited = s.inhibited := (resetVel_frame x s).2.2.2.2.2.2.2.2.2.2.2.2.2.2.2.2.2.2.2.1
@[simp] theorem resetVel_nonMagPrev (x : In) (s : St) : (resetVel x s).nonMagPrev = s.nonMagPrev := (resetVel_frame x s).2.2.2.2.2.2.2.2.2.2.2.2.2.2.2.2.2.2.2.2.1
@[simp] theorem resetVel_yawObs (x : In) (s : St) : (resetVel x s).yawObs = s.yawObs := (resetVel_frame x s).2.2.2.2.2.2.2.2.2.2.2.2.2.2.2.2.2.2.2.2.2.1
@[simp] theorem resetVel_biasObs (x : In) (s : St) : (resetVel x s).biasObs = s.biasObs := (resetVel_frame x s).2.2.2.2.2.2.2.2.2.2.2.2.2.2.2.2.2.2.2.2.2.2.1
@[simp] theorem resetVel_nBad (x : In) (s : St) : (resetVel x s).nBad = s.nBad := (resetVel_frame x s).2.2.2.2.2.2.2.2.2.2.2.2.2.2.2.2.2.2.2.2.2.2.2.1
@[simp] theorem resetVel_declCovReset (x : In) (s : St) : (resetVel x s).declCovReset = s.declCovReset := (resetVel_frame x s).2.2.2.2.2.2.2.2.2.2.2.2.2.2.2.2.2.2.2.2.2.2.2.2.1
@[simp] theorem resetVel_tAlign (x : In) (s : St) : (resetVel x s).tAlign = s.tAlign := (resetVel_frame x s).2.2.2.2.2.2.2.2.2.2.2.2.2.2.2.2.2.2.2.2.2.2.2.2.2.1
@[simp] theorem resetVel_tMov (x : In) (s : St) : (resetVel x s).tMov = s.tMov := (resetVel_frame x s).2.2.2.2.2.2.2.2.2.2.2.2.2.2.2.2.2.2.2.2.2.2.2.2.2.2.1
@[simp] theorem resetVel_tNotInh (x : In) (s : St) : (resetVel x s).tNotInh = s.tNotInh := (resetVel_frame x s).2.2.2.2.2.2.2.2.2.2.2.2.2.2.2.2.2.2.2.2.2.2.2.2.2.2.2.1
@[simp] theorem resetVel_tYaw (x : In) (s : St) : (resetVel x s).tYaw = s.tYaw := (resetVel_frame x s).2.2.2.2.2.2.2.2.2.2.2.2.2.2.2.2.2.2.2.2.2.2.2.2.2.2.2.2.1
@[simp] theorem resetVel_gpsYawFaulty (x : In) (s : St) : (resetVel x s).gpsYawFaulty = s.gpsYawFaulty := (resetVel_frame x s).2.2.2.2.2.2.2.2.2.2.2.2.2.2.2.2.2.2.2.2.2.2.2.2.2.2.2.2.2.1
@[simp] theorem resetVel_doGsf (x : In) (s : St) : (resetVel x s).doGsf = s.doGsf := (resetVel_frame x s).2.2.2.2.2.2.2.2.2.2.2.2.2.2.2.2.2.2.2.2.2.2.2.2.2.2.2.2.2.2.1
@[simp] theorem resetVel_gsfTime (x : In) (s : St) : (resetVel x s).gsfTime = s.gsfTime := (resetVel_frame x s).2.2.2.2.2.2.2.2.2.2.2.2.2.2.2.2.2.2.2.2.2.2.2.2.2.2.2.2.2.2.2.1
@[simp] theorem resetVel_gsfCount (x : In) (s : St) : (resetVel x s).gsfCount = s.gsfCount := (resetVel_frame x s).2.2.2.2.2.2.2.2.2.2.2.2.2.2.2.2.2.2.2.2.2.2.2.2.2.2.2.2.2.2.2.2.1
@[simp] theorem resetVel_tPos (x : In) (s : St) : (resetVel x s).tPos = s.tPos := (resetVel_frame x s).2.2.2.2.2.2.2.2.2.2.2.2.2.2.2.2.2.2.2.2.2.2.2.2.2.2.2.2.2.2.2.2.2.1
@[simp] theorem resetVel_tDelpos (x : In) (s : St) : (resetVel x s).tDelpos = s.tDelpos := (resetVel_frame x s).2.2.2.2.2.2.2.2.2.2.2.2.2.2.2.2.2.2.2.2.2.2.2.2.2.2.2.2.2.2.2.2.2.2.1
@[simp] theorem resetVel_tVel (x : In) (s : St) : (resetVel x s).tVel = s.tVel := (resetVel_frame x s).2.2.2.2.2.2.2.2.2.2.2.2.2.2.2.2.2.2.2.2.2.2.2.2.2.2.2.2.2.2.2.2.2.2.2.1
@[simp] theorem resetVel_tOf (x : In) (s : St) : (resetVel x s).tOf = s.tOf := (resetVel_frame x s).2.2.2.2.2.2.2.2.2.2.2.2.2.2.2.2.2.2.2.2.2.2.2.2.2.2.2.2.2.2.2.2.2.2.2.2.1
@[simp] theorem resetVel_tBeta (x : In) (s : St) : (resetVel x s).tBeta = s.tBeta := (resetVel_frame x s).2.2.2.2.2.2.2.2.2.2.2.2.2.2.2.2.2.2.2.2.2.2.2.2.2.2.2.2.2.2.2.2.2.2.2.2.2.1
@[simp] theorem resetVel_tArsp (x : In) (s : St) : (resetVel x s).tArsp = s.tArsp := (resetVel_frame x s).2.2.2.2.2.2.2.2.2.2.2.2.2.2.2.2.2.2.2.2.2.2.2.2.2.2.2.2.2.2.2.2.2.2.2.2.2.2.1
@[simp] theorem resetVel_tFake (x : In) (s : St) : (resetVel x s).tFake = s.tFake := (resetVel_frame x s).2.2.2.2.2.2.2.2.2.2.2.2.2.2.2.2.2.2.2.2.2.2.2.2.2.2.2.2.2.2.2.2.2.2.2.2.2.2.2.1
@[simp] theorem resetVel_tGpsYaw (x : In) (s : St) : (resetVel x s).tGpsYaw = s.tGpsYaw := (resetVel_frame x s).2.2.2.2.2.2.2.2.2.2.2.2.2.2.2.2.2.2.2.2.2.2.2.2.2.2.2.2.2.2.2.2.2.2.2.2.2.2.2.2.1
@[simp] theorem resetVel_hposPrev (x : In) (s : St) : (resetVel x s).hposPrev = s.hposPrev := (resetVel_frame x s).2.2.2.2.2.2.2.2.2.2.2.2.2.2.2.2.2.2.2.2.2.2.2.2.2.2.2.2.2.2.2.2.2.2.2.2.2.2.2.2.2.1
@[simp] theorem resetVel_hposOdom (x : In) (s : St) : (resetVel x s).hposOdom = s.hposOdom := (resetVel_frame x s).2.2.2.2.2.2.2.2.2.2.2.2.2.2.2.2.2.2.2.2.2.2.2.2.2.2.2.2.2.2.2.2.2.2.2.2.2.2.2.2.2.2.1
@[simp] theorem resetVel_synth (x : In) (s : St) : (resetVel x s).synth = s.synth := (resetVel_frame x s).2.2.2.2.2.2.2.2.2.2.2.2.2.2.2.2.2.2.2.2.2.2.2.2.2.2.2.2.2.2.2.2.2.2.2.2.2.2.2.2.2.2.2.1
@[simp] theorem resetVel_flowReady (x : In) (s : St) : (resetVel x s).flowReady = s.flowReady := (resetVel_frame x s).2.2.2.2.2.2.2.2.2.2.2.2.2.2.2.2.2.2.2.2.2.2.2.2.2.2.2.2.2.2.2.2.2.2.2.2.2.2.2.2.2.2.2.2.1
@[simp] theorem resetVel_flowInh (x : In) (s : St) : (resetVel x s).flowInh = s.flowInh := (resetVel_frame x s).2.2.2.2.2.2.2.2.2.2.2.2.2.2.2.2.2.2.2.2.2.2.2.2.2.2.2.2.2.2.2.2.2.2.2.2.2.2.2.2.2.2.2.2.2.1
@[simp] theorem resetVel_tGood (x : In) (s : St) : (resetVel x s).tGood = s.tGood := (resetVel_frame x s).2.2.2.2.2.2.2.2.2.2.2.2.2.2.2.2.2.2.2.2.2.2.2.2.2.2.2.2.2.2.2.2.2.2.2.2.2.2.2.2.2.2.2.2.2.2.1
@[simp] theorem resetVel_tBad (x : In) (s : St) : (resetVel x s).tBad = s.tBad := (resetVel_frame x s).2.2.2.2.2.2.2.2.2.2.2.2.2.2.2.2.2.2.2.2.2.2.2.2.2.2.2.2.2.2.2.2.2.2.2.2.2.2.2.2.2.2.2.2.2.2.2

theorem resetPos_frame (x : In) (s : St) :
    (resetPos x s).tilt = s.tilt ∧ (resetPos x s).yawAlign = s.yawAlign ∧ (resetPos x s).gps = s.gps ∧ (resetPos x s).optFlow = s.optFlow ∧ (resetPos x s).magHdg = s.magHdg ∧ (resetPos x s).mag3D = s.mag3D ∧ (resetPos x s).magDec = s.magDec ∧ (resetPos x s).wind = s.wind ∧ (resetPos x s).evPos = s.evPos ∧ (resetPos x s).evVel = s.evVel ∧ (resetPos x s).evYaw = s.evYaw ∧ (resetPos x s).gpsYaw = s.gpsYaw ∧ (resetPos x s).magDist = s.magDist ∧ (resetPos x s).magFault = s.magFault ∧ (resetPos x s).fuseAspd = s.fuseAspd ∧ (resetPos x s).magAligned = s.magAligned ∧ (resetPos x s).magYawReq = s.magYawReq ∧ (resetPos x s).magInhReq = s.magInhReq ∧ (resetPos x s).velposReq = s.velposReq ∧ (resetPos x s).inhibited = s.inhibited ∧ (resetPos x s).nonMagPrev = s.nonMagPrev ∧ (resetPos x s).yawObs = s.yawObs ∧ (resetPos x s).biasObs = s.biasObs ∧ (resetPos x s).nBad = s.nBad ∧ (resetPos x s).declCovReset = s.declCovReset ∧ (resetPos x s).tAlign = s.tAlign ∧ (resetPos x s).tMov = s.tMov ∧ (resetPos x s).tNotInh = s.tNotInh ∧ (resetPos x s).tYaw = s.tYaw ∧ (resetPos x s).gpsYawFaulty = s.gpsYawFaulty ∧ (resetPos x s).doGsf = s.doGsf ∧ (resetPos x s).gsfTime = s.gsfTime ∧ (resetPos x s).gsfCount = s.gsfCount ∧ (resetPos x s).tPos = s.tPos ∧ (resetPos x s).tDelpos = s.tDelpos ∧ (resetPos x s).tVel = s.tVel ∧ (resetPos x s).tOf = s.tOf ∧ (resetPos x s).tBeta = s.tBeta ∧ (resetPos x s).tArsp = s.tArsp ∧ (resetPos x s).tFake = s.tFake ∧ (resetPos x s).tGpsYaw = s.tGpsYaw ∧ (resetPos x s).hposOdom = s.hposOdom ∧ (resetPos x s).synth = s.synth ∧ (resetPos x s).flowReady = s.flowReady ∧ (resetPos x s).flowInh = s.flowInh ∧ (resetPos x s).tGood = s.tGood ∧ (resetPos x s).tBad = s.tBad := by
  unfold resetPos; simp
@[simp] theorem resetPos_tilt (x : In) (s : St) : (resetPos x s).tilt = s.tilt := (resetPos_frame x s).1
@[simp] theorem resetPos_yawAlign (x : In) (s : St) : (resetPos x s).yawAlign = s.yawAlign := (resetPos_frame x s).2.1
@[simp] theorem resetPos_gps (x : In) (s : St) : (resetPos x s).gps = s.gps := (resetPos_frame x s).2.2.1
@[simp] theorem resetPos_optFlow (x : In) (s : St) : (resetPos x s).optFlow = s.optFlow := (resetPos_frame x s).2.2.2.1
@[simp] theorem resetPos_magHdg (x : In) (s : St) : (resetPos x s).magHdg = s.magHdg := (resetPos_frame x s).2.2.2.2.1
@[simp] theorem resetPos_mag3D (x : In) (s : St) : (resetPos x s).mag3D = s.mag3D := (resetPos_frame x s).2.2.2.2.2.1
@[simp] theorem resetPos_magDec (x : In) (s : St) : (resetPos x s).magDec = s.magDec := (resetPos_frame x s).2.2.2.2.2.2.1
@[simp] theorem resetPos_wind (x : In) (s : St) : (resetPos x s).wind = s.wind := (resetPos_frame x s).2.2.2.2.2.2.2.1
@[simp] theorem resetPos_evPos (x : In) (s : St) : (resetPos x s).evPos = s.evPos := (resetPos_frame x s).2.2.2.2.2.2.2.2.1
@[simp] theorem resetPos_evVel (x : In) (s : St) : (resetPos x s).evVel = s.evVel := (resetPos_frame x s).2.2.2.2.2.2.2.2.2.1
@[simp] theorem resetPos_evYaw (x : In) (s : St) : (resetPos x s).evYaw = s.evYaw := (resetPos_frame x s).2.2.2.2.2.2.2.2.2.2.1
@[simp] theorem resetPos_gpsYaw (x : In) (s : St) : (resetPos x s).gpsYaw = s.gpsYaw := (resetPos_frame x s).2.2.2.2.2.2.2.2.2.2.2.1
@[simp] theorem resetPos_magDist (x : In) (s : St) : (resetPos x s).magDist = s.magDist := (resetPos_frame x s).2.2.2.2.2.2.2.2.2.2.2.2.1
@[simp] theorem resetPos_magFault (x : In) (s : St) : (resetPos x s).magFault = s.magFault := (resetPos_frame x s).2.2.2.2.2.2.2.2.2.2.2.2.2.1
@[simp] theorem resetPos_fuseAspd (x : In) (s : St) : (resetPos x s).fuseAspd = s.fuseAspd := (resetPos_frame x s).2.2.2.2.2.2.2.2.2.2.2.2.2.2.1
@[simp] theorem resetPos_magAligned (x : In) (s : St) : (resetPos x s).magAligned = s.magAligned := (resetPos_frame x s).2.2.2.2.2.2.2.2.2.2.2.2.2.2.2.1
@[simp] theorem resetPos_magYawReq (x : In) (s : St) : (resetPos x s).magYawReq = s.magYawReq := (resetPos_frame x s).2.2.2.2.2.2.2.2.2.2.2.2.2.2.2.2.1
@[simp] theorem resetPos_magInhReq (x : In) (s : St) : (resetPos x s).magInhReq = s.magInhReq := (resetPos_frame x s).2.2.2.2.2.2.2.2.2.2.2.2.2.2.2.2.2.1
@[simp] theorem resetPos_velposReq (x : In) (s : St) : (resetPos x s).velposReq = s.velposReq := (resetPos_frame x s).2.2.2.2.2.2.2.2.2.2.2.2.2.2.2.2.2.2.1
@[simp] theorem resetPos_inhibited (x : In) (s : St) : (resetPos x s).inhibited = s.inhibited := (resetPos_frame x s).2.2.2.2.2.2.2.2.2.2.2.2.2.2.2.2.2.2.2.1
@[simp] theorem resetPos_nonMagPrev (x : In) (s : St) : (resetPos x s).nonMagPrev = s.nonMagPrev := (resetPos_frame x s).2.2.2.2.2.2.2.2.2.2.2.2.2.2.2.2.2.2.2.2.1
@[simp] theorem resetPos_yawObs (x : In) (s : St) : (resetPos x s).yawObs = s.yawObs := (resetPos_frame x s).2.2.2.2.2.2.2.2.2.2.2.2.2.2.2.2.2.2.2.2.2.1
@[simp] theorem resetPos_biasObs (x : In) (s : St) : (resetPos x s).biasObs = s.biasObs := (resetPos_frame x s).2.2.2.2.2.2.2.2.2.2.2.2.2.2.2.2.2.2.2.2.2.2.1
@[simp] theorem resetPos_nBad (x : In) (s : St) : (resetPos x s).nBad = s.nBad := (resetPos_frame x s).2.2.2.2.2.2.2.2.2.2.2.2.2.2.2.2.2.2.2.2.2.2.2.1
@[simp] theorem resetPos_declCovReset (x : In) (s : St) : (resetPos x s).declCovReset = s.declCovReset := (resetPos_frame x s).2.2.2.2.2.2.2.2.2.2.2.2.2.2.2.2.2.2.2.2.2.2.2.2.1
@[simp] theorem resetPos_tAlign (x : In) (s : St) : (resetPos x s).tAlign = s.tAlign := (resetPos_frame x s).2.2.2.2.2.2.2.2.2.2.2.2.2.2.2.2.2.2.2.2.2.2.2.2.2.1
@[simp] theorem resetPos_tMov (x : In) (s : St) : (resetPos x s).tMov = s.tMov := (resetPos_frame x s).2.2.2.2.2.2.2.2.2.2.2.2.2.2.2.2.2.2.2.2.2.2.2.2.2.2.1
@[simp] theorem resetPos_tNotInh (x : In) (s : St) : (resetPos x s).tNotInh = s.tNotInh := (resetPos_frame x s).2.2.2.2.2.2.2.2.2.2.2.2.2.2.2.2.2.2.2.2.2.2.2.2.2.2.2.1
@[simp] theorem resetPos_tYaw (x : In) (s : St) : (resetPos x s).tYaw = s.tYaw := (resetPos_frame x s).2.2.2.2.2.2.2.2.2.2.2.2.2.2.2.2.2.2.2.2.2.2.2.2.2.2.2.2.1
@[simp] theorem resetPos_gpsYawFaulty (x : In) (s : St) : (resetPos x s).gpsYawFaulty = s.gpsYawFaulty := (resetPos_frame x s).2.2.2.2.2.2.2.2.2.2.2.2.2.2.2.2.2.2.2.2.2.2.2.2.2.2.2.2.2.1
@[simp] theorem resetPos_doGsf (x : In) (s : St) : (resetPos x s).doGsf = s.doGsf := (resetPos_frame x s).2.2.2.2.2.2.2.2.2.2.2.2.2.2.2.2.2.2.2.2.2.2.2.2.2.2.2.2.2.2.1
@[simp] theorem resetPos_gsfTime (x : In) (s : St) : (resetPos x s).gsfTime = s.gsfTime := (resetPos_frame x s).2.2.2.2.2.2.2.2.2.2.2.2.2.2.2.2.2.2.2.2.2.2.2.2.2.2.2.2.2.2.2.1
@[simp] theorem resetPos_gsfCount (x : In) (s : St) : (resetPos x s).gsfCount = s.gsfCount := (resetPos_frame x s).2.2.2.2.2.2.2.2.2.2.2.2.2.2.2.2.2.2.2.2.2.2.2.2.2.2.2.2.2.2.2.2.1
@[simp] theorem resetPos_tPos (x : In) (s : St) : (resetPos x s).tPos = s.tPos := (resetPos_frame x s).2.2.2.2.2.2.2.2.2.2.2.2.2.2.2.2.2.2.2.2.2.2.2.2.2.2.2.2.2.2.2.2.2.1
@[simp] theorem resetPos_tDelpos (x : In) (s : St) : (resetPos x s).tDelpos = s.tDelpos := (resetPos_frame x s).2.2.2.2.2.2.2.2.2.2.2.2.2.2.2.2.2.2.2.2.2.2.2.2.2.2.2.2.2.2.2.2.2.2.1
@[simp] theorem resetPos_tVel (x : In) (s : St) : (resetPos x s).tVel = s.tVel := (resetPos_frame x s).2.2.2.2.2.2.2.2.2.2.2.2.2.2.2.2.2.2.2.2.2.2.2.2.2.2.2.2.2.2.2.2.2.2.2.1
@[simp] theorem resetPos_tOf (x : In) (s : St) : (resetPos x s).tOf = s.tOf := (resetPos_frame x s).2.2.2.2.2.2.2.2.2.2.2.2.2.2.2.2.2.2.2.2.2.2.2.2.2.2.2.2.2.2.2.2.2.2.2.2.1
@[simp] theorem resetPos_tBeta (x : In) (s : St) : (resetPos x s).tBeta = s.tBeta := (resetPos_frame x s).2.2.2.2.2.2.2.2.2.2.2.2.2.2.2.2.2.2.2.2.2.2.2.2.2.2.2.2.2.2.2.2.2.2.2.2.2.1
@[simp] theorem resetPos_tArsp (x : In) (s : St) : (resetPos x s).tArsp = s.tArsp := (resetPos_frame x s).2.2.2.2.2.2.2.2.2.2.2.2.2.2.2.2.2.2.2.2.2.2.2.2.2.2.2.2.2.2.2.2.2.2.2.2.2.2.1
@[simp] theorem resetPos_tFake (x : In) (s : St) : (resetPos x s).tFake = s.tFake := (resetPos_frame x s).2.2.2.2.2.2.2.2.2.2.2.2.2.2.2.2.2.2.2.2.2.2.2.2.2.2.2.2.2.2.2.2.2.2.2.2.2.2.2.1
@[simp] theorem resetPos_tGpsYaw (x : In) (s : St) : (resetPos x s).tGpsYaw = s.tGpsYaw := (resetPos_frame x s).2.2.2.2.2.2.2.2.2.2.2.2.2.2.2.2.2.2.2.2.2.2.2.2.2.2.2.2.2.2.2.2.2.2.2.2.2.2.2.2.1
@[simp] theorem resetPos_hposOdom (x : In) (s : St) : (resetPos x s).hposOdom = s.hposOdom := (resetPos_frame x s).2.2.2.2.2.2.2.2.2.2.2.2.2.2.2.2.2.2.2.2.2.2.2.2.2.2.2.2.2.2.2.2.2.2.2.2.2.2.2.2.2.1
@[simp] theorem resetPos_synth (x : In) (s : St) : (resetPos x s).synth = s.synth := (resetPos_frame x s).2.2.2.2.2.2.2.2.2.2.2.2.2.2.2.2.2.2.2.2.2.2.2.2.2.2.2.2.2.2.2.2.2.2.2.2.2.2.2.2.2.2.1
@[simp] theorem resetPos_flowReady (x : In) (s : St) : (resetPos x s).flowReady = s.flowReady := (resetPos_frame x s).2.2.2.2.2.2.2.2.2.2.2.2.2.2.2.2.2.2.2.2.2.2.2.2.2.2.2.2.2.2.2.2.2.2.2.2.2.2.2.2.2.2.2.1
@[simp] theorem resetPos_flowInh (x : In) (s : St) : (resetPos x s).flowInh = s.flowInh := (resetPos_frame x s).2.2.2.2.2.2.2.2.2.2.2.2.2.2.2.2.2.2.2.2.2.2.2.2.2.2.2.2.2.2.2.2.2.2.2.2.2.2.2.2.2.2.2.2.1
@[simp] theorem resetPos_tGood (x : In) (s : St) : (resetPos x s).tGood = s.tGood := (resetPos_frame x s).2.2.2.2.2.2.2.2.2.2.2.2.2.2.2.2.2.2.2.2.2.2.2.2.2.2.2.2.2.2.2.2.2.2.2.2.2.2.2.2.2.2.2.2.2.1
@[simp] theorem resetPos_tBad (x : In) (s : St) : (resetPos x s).tBad = s.tBad := (resetPos_frame x s).2.2.2.2.2.2.2.2.2.2.2.2.2.2.2.2.2.2.2.2.2.2.2.2.2.2.2.2.2.2.2.2.2.2.2.2.2.2.2.2.2.2.2.2.2.2

theorem resetMagHeading_frame (x : In) (s : St) :
    (resetMagHeading x s).1.tilt = s.tilt ∧ (resetMagHeading x s).1.yawAlign = s.yawAlign ∧ (resetMagHeading x s).1.gps = s.gps ∧ (resetMagHeading x s).1.optFlow = s.optFlow ∧ (resetMagHeading x s).1.magDec = s.magDec ∧ (resetMagHeading x s).1.wind = s.wind ∧ (resetMagHeading x s).1.evPos = s.evPos ∧ (resetMagHeading x s).1.evVel = s.evVel ∧ (resetMagHeading x s).1.evYaw = s.evYaw ∧ (resetMagHeading x s).1.gpsYaw = s.gpsYaw ∧ (resetMagHeading x s).1.magDist = s.magDist ∧ (resetMagHeading x s).1.magFault = s.magFault ∧ (resetMagHeading x s).1.fuseAspd = s.fuseAspd ∧ (resetMagHeading x s).1.magAligned = s.magAligned ∧ (resetMagHeading x s).1.magYawReq = s.magYawReq ∧ (resetMagHeading x s).1.magInhReq = s.magInhReq ∧ (resetMagHeading x s).1.velposReq = s.velposReq ∧ (resetMagHeading x s).1.inhibited = s.inhibited ∧ (resetMagHeading x s).1.nonMagPrev = s.nonMagPrev ∧ (resetMagHeading x s).1.yawObs = s.yawObs ∧ (resetMagHeading x s).1.biasObs = s.biasObs ∧ (resetMagHeading x s).1.nBad = s.nBad ∧ (resetMagHeading x s).1.tMov = s.tMov ∧ (resetMagHeading x s).1.tNotInh = s.tNotInh ∧ (resetMagHeading x s).1.tYaw = s.tYaw ∧ (resetMagHeading x s).1.gpsYawFaulty = s.gpsYawFaulty ∧ (resetMagHeading x s).1.doGsf = s.doGsf ∧ (resetMagHeading x s).1.gsfTime = s.gsfTime ∧ (resetMagHeading x s).1.gsfCount = s.gsfCount ∧ (resetMagHeading x s).1.tPos = s.tPos ∧ (resetMagHeading x s).1.tDelpos = s.tDelpos ∧ (resetMagHeading x s).1.tVel = s.tVel ∧ (resetMagHeading x s).1.tOf = s.tOf ∧ (resetMagHeading x s).1.tBeta = s.tBeta ∧ (resetMagHeading x s).1.tArsp = s.tArsp ∧ (resetMagHeading x s).1.tFake = s.tFake ∧ (resetMagHeading x s).1.tGpsYaw = s.tGpsYaw ∧ (resetMagHeading x s).1.hposPrev = s.hposPrev ∧ (resetMagHeading x s).1.hposOdom = s.hposOdom ∧ (resetMagHeading x s).1.synth = s.synth ∧ (resetMagHeading x s).1.flowReady = s.flowReady ∧ (resetMagHeading x s).1.flowInh = s.flowInh ∧ (resetMagHeading x s).1.tGood = s.tGood ∧ (resetMagHeading x s).1.tBad = s.tBad := by
  unfold resetMagHeading; (try dsimp only); split_ifs <;> simp [*]
@[simp] theorem resetMagHeading_tilt (x : In) (s : St) : (resetMagHeading x s).1.tilt = s.tilt := (resetMagHeading_frame x s).1
@[simp] theorem resetMagHeading_yawAlign (x : In) (s : St) : (resetMagHeading x s).1.yawAlign = s.yawAlign := (resetMagHeading_frame x s).2.1
@[simp] theorem resetMagHeading_gps (x : In) (s : St) : (resetMagHeading x s).1.gps = s.gps := (resetMagHeading_frame x s).2.2.1
@[simp] theorem resetMagHeading_optFlow (x : In) (s : St) : (resetMagHeading x s).1.optFlow = s.optFlow := (resetMagHeading_frame x s).2.2.2.1
@[simp] theorem resetMagHeading_magDec (x : In) (s : St) : (resetMagHeading x s).1.magDec = s.magDec := (resetMagHeading_frame x s).2.2.2.2.1
@[simp] theorem resetMagHeading_wind (x : In) (s : St) : (resetMagHeading x s).1.wind = s.wind := (resetMagHeading_frame x s).2.2.2.2.2.1
@[simp] theorem resetMagHeading_evPos (x : In) (s : St) : (resetMagHeading x s).1.evPos = s.evPos := (resetMagHeading_frame x s).2.2.2.2.2.2.1
@[simp] theorem resetMagHeading_evVel (x : In) (s : St) : (resetMagHeading x s).1.evVel = s.evVel := (resetMagHeading_frame x s).2.2.2.2.2.2.2.1
@[simp] theorem resetMagHeading_evYaw (x : In) (s : St) : (resetMagHeading x s).1.evYaw = s.evYaw := (resetMagHeading_frame x s).2.2.2.2.2.2.2.2.1
@[simp] theorem resetMagHeading_gpsYaw (x : In) (s : St) : (resetMagHeading x s).1.gpsYaw = s.gpsYaw := (resetMagHeading_frame x s).2.2.2.2.2.2.2.2.2.1
@[simp] theorem resetMagHeading_magDist (x : In) (s : St) : (resetMagHeading x s).1.magDist = s.magDist := (resetMagHeading_frame x s).2.2.2.2.2.2.2.2.2.2.1
@[simp] theorem resetMagHeading_magFault (x : In) (s : St) : (resetMagHeading x s).1.magFault = s.magFault := (resetMagHeading_frame x s).2.2.2.2.2.2.2.2.2.2.2.1
@[simp] theorem resetMagHeading_fuseAspd (x : In) (s : St) : (resetMagHeading x s).1.fuseAspd = s.fuseAspd := (resetMagHeading_frame x s).2.2.2.2.2.2.2.2.2.2.2.2.1
@[simp] theorem resetMagHeading_magAligned (x : In) (s : St) : (resetMagHeading x s).1.magAligned = s.magAligned := (resetMagHeading_frame x s).2.2.2.2.2.2.2.2.2.2.2.2.2.1
@[simp] theorem resetMagHeading_magYawReq (x : In) (s : St) : (resetMagHeading x s).1.magYawReq = s.magYawReq := (resetMagHeading_frame x s).2.2.2.2.2.2.2.2.2.2.2.2.2.2.1
@[simp] theorem resetMagHeading_magInhReq (x : In) (s : St) : (resetMagHeading x s).1.magInhReq = s.magInhReq := (resetMagHeading_frame x s).2.2.2.2.2.2.2.2.2.2.2.2.2.2.2.1
@[simp] theorem resetMagHeading_velposReq (x : In) (s : St) : (resetMagHeading x s).1.velposReq = s.velposReq := (resetMagHeading_frame x s).2.2.2.2.2.2.2.2.2.2.2.2.2.2.2.2.1
@[simp] theorem resetMagHeading_inhibited (x : In) (s : St) : (resetMagHeading x s).1.inhibited = s.inhibited := (resetMagHeading_frame x s).2.2.2.2.2.2.2.2.2.2.2.2.2.2.2.2.2.1
@[simp] theorem resetMagHeading_nonMagPrev (x : In) (s : St) : (resetMagHeading x s).1.nonMagPrev = s.nonMagPrev := (resetMagHeading_frame x s).2.2.2.2.2.2.2.2.2.2.2.2.2.2.2.2.2.2.1
@[simp] theorem resetMagHeading_yawObs (x : In) (s : St) : (resetMagHeading x s).1.yawObs = s.yawObs := (resetMagHeading_frame x s).2.2.2.2.2.2.2.2.2.2.2.2.2.2.2.2.2.2.2.1
@[simp] theorem resetMagHeading_biasObs (x : In) (s : St) : (resetMagHeading x s).1.biasObs = s.biasObs := (resetMagHeading_frame x s).2.2.2.2.2.2.2.2.2.2.2.2.2.2.2.2.2.2.2.2.1
@[simp] theorem resetMagHeading_nBad (x : In) (s : St) : (resetMagHeading x s).1.nBad = s.nBad := (resetMagHeading_frame x s).2.2.2.2.2.2.2.2.2.2.2.2.2.2.2.2.2.2.2.2.2.1
@[simp] theorem resetMagHeading_tMov (x : In) (s : St) : (resetMagHeading x s).1.tMov = s.tMov := (resetMagHeading_frame x s).2.2.2.2.2.2.2.2.2.2.2.2.2.2.2.2.2.2.2.2.2.2.1
@[simp] theorem resetMagHeading_tNotInh (x : In) (s : St) : (resetMagHeading x s).1.tNotInh = s.tNotInh := (resetMagHeading_frame x s).2.2.2.2.2.2.2.2.2.2.2.2.2.2.2.2.2.2.2.2.2.2.2.1
@[simp] theorem resetMagHeading_tYaw (x : In) (s : St) : (resetMagHeading x s).1.tYaw = s.tYaw := (resetMagHeading_frame x s).2.2.2.2.2.2.2.2.2.2.2.2.2.2.2.2.2.2.2.2.2.2.2.2.1
@[simp] theorem resetMagHeading_gpsYawFaulty (x : In) (s : St) : (resetMagHeading x s).1.gpsYawFaulty = s.gpsYawFaulty := (resetMagHeading_frame x s).2.2.2.2.2.2.2.2.2.2.2.2.2.2.2.2.2.2.2.2.2.2.2.2.2.1
@[simp] theorem resetMagHeading_doGsf (x : In) (s : St) : (resetMagHeading x s).1.doGsf = s.doGsf := (resetMagHeading_frame x s).2.2.2.2.2.2.2.2.2.2.2.2.2.2.2.2.2.2.2.2.2.2.2.2.2.2.1
@[simp] theorem resetMagHeading_gsfTime (x : In) (s : St) : (resetMagHeading x s).1.gsfTime = s.gsfTime := (resetMagHeading_frame x s).2.2.2.2.2.2.2.2.2.2.2.2.2.2.2.2.2.2.2.2.2.2.2.2.2.2.2.1
@[simp] theorem resetMagHeading_gsfCount (x : In) (s : St) : (resetMagHeading x s).1.gsfCount = s.gsfCount := (resetMagHeading_frame x s).2.2.2.2.2.2.2.2.2.2.2.2.2.2.2.2.2.2.2.2.2.2.2.2.2.2.2.2.1
@[simp] theorem resetMagHeading_tPos (x : In) (s : St) : (resetMagHeading x s).1.tPos = s.tPos := (resetMagHeading_frame x s).2.2.2.2.2.2.2.2.2.2.2.2.2.2.2.2.2.2.2.2.2.2.2.2.2.2.2.2.2.1
@[simp] theorem resetMagHeading_tDelpos (x : In) (s : St) : (resetMagHeading x s).1.tDelpos = s.tDelpos := (resetMagHeading_frame x s).2.2.2.2.2.2.2.2.2.2.2.2.2.2.2.2.2.2.2.2.2.2.2.2.2.2.2.2.2.2.1
@[simp] theorem resetMagHeading_tVel (x : In) (s : St) : (resetMagHeading x s).1.tVel = s.tVel := (resetMagHeading_frame x s).2.2.2.2.2.2.2.2.2.2.2.2.2.2.2.2.2.2.2.2.2.2.2.2.2.2.2.2.2.2.2.1
@[simp] theorem resetMagHeading_tOf (x : In) (s : St) : (resetMagHeading x s).1.tOf = s.tOf := (resetMagHeading_frame x s).2.2.2.2.2.2.2.2.2.2.2.2.2.2.2.2.2.2.2.2.2.2.2.2.2.2.2.2.2.2.2.2.1
@[simp] theorem resetMagHeading_tBeta (x : In) (s : St) : (resetMagHeading x s).1.tBeta = s.tBeta := (resetMagHeading_frame x s).2.2.2.2.2.2.2.2.2.2.2.2.2.2.2.2.2.2.2.2.2.2.2.2.2.2.2.2.2.2.2.2.2.1
@[simp] theorem resetMagHeading_tArsp (x : In) (s : St) : (resetMagHeading x s).1.tArsp = s.tArsp := (resetMagHeading_frame x s).2.2.2.2.2.2.2.2.2.2.2.2.2.2.2.2.2.2.2.2.2.2.2.2.2.2.2.2.2.2.2.2.2.2.1
@[simp] theorem resetMagHeading_tFake (x : In) (s : St) : (resetMagHeading x s).1.tFake = s.tFake := (resetMagHeading_frame x s).2.2.2.2.2.2.2.2.2.2.2.2.2.2.2.2.2.2.2.2.2.2.2.2.2.2.2.2.2.2.2.2.2.2.2.1
@[simp] theorem resetMagHeading_tGpsYaw (x : In) (s : St) : (resetMagHeading x s).1.tGpsYaw = s.tGpsYaw := (resetMagHeading_frame x s).2.2.2.2.2.2.2.2.2.2.2.2.2.2.2.2.2.2.2.2.2.2.2.2.2.2.2.2.2.2.2.2.2.2.2.2.1
@[simp] theorem resetMagHeading_hposPrev (x : In) (s : St) : (resetMagHeading x s).1.hposPrev = s.hposPrev := (resetMagHeading_frame x s).2.2.2.2.2.2.2.2.2.2.2.2.2.2.2.2.2.2.2.2.2.2.2.2.2.2.2.2.2.2.2.2.2.2.2.2.2.1
@[simp] theorem resetMagHeading_hposOdom (x : In) (s : St) : (resetMagHeading x s).1.hposOdom = s.hposOdom := (resetMagHeading_frame x s).2.2.2.2.2.2.2.2.2.2.2.2.2.2.2.2.2.2.2.2.2.2.2.2.2.2.2.2.2.2.2.2.2.2.2.2.2.2.1
@[simp] theorem resetMagHeading_synth (x : In) (s : St) : (resetMagHeading x s).1.synth = s.synth := (resetMagHeading_frame x s).2.2.2.2.2.2.2.2.2.2.2.2.2.2.2.2.2.2.2.2.2.2.2.2.2.2.2.2.2.2.2.2.2.2.2.2.2.2.2.1
@[simp] theorem resetMagHeading_flowReady (x : In) (s : St) : (resetMagHeading x s).1.flowReady = s.flowReady := (resetMagHeading_frame x s).2.2.2.2.2.2.2.2.2.2.2.2.2.2.2.2.2.2.2.2.2.2.2.2.2.2.2.2.2.2.2.2.2.2.2.2.2.2.2.2.1
@[simp] theorem resetMagHeading_flowInh (x : In) (s : St) : (resetMagHeading x s).1.flowInh = s.flowInh := (resetMagHeading_frame x s).2.2.2.2.2.2.2.2.2.2.2.2.2.2.2.2.2.2.2.2.2.2.2.2.2.2.2.2.2.2.2.2.2.2.2.2.2.2.2.2.2.1
@[simp] theorem resetMagHeading_tGood (x : In) (s : St) : (resetMagHeading x s).1.tGood = s.tGood := (resetMagHeading_frame x s).2.2.2.2.2.2.2.2.2.2.2.2.2.2.2.2.2.2.2.2.2.2.2.2.2.2.2.2.2.2.2.2.2.2.2.2.2.2.2.2.2.2.1
@[simp] theorem resetMagHeading_tBad (x : In) (s : St) : (resetMagHeading x s).1.tBad = s.tBad := (resetMagHeading_frame x s).2.2.2.2.2.2.2.2.2.2.2.2.2.2.2.2.2.2.2.2.2.2.2.2.2.2.2.2.2.2.2.2.2.2.2.2.2.2.2.2.2.2.2

theorem declareFault_frame (s : St) :
    (declareFault s).tilt = s.tilt ∧ (declareFault s).yawAlign = s.yawAlign ∧ (declareFault s).gps = s.gps ∧ (declareFault s).optFlow = s.optFlow ∧ (declareFault s).magHdg = s.magHdg ∧ (declareFault s).mag3D = s.mag3D ∧ (declareFault s).magDec = s.magDec ∧ (declareFault s).wind = s.wind ∧ (declareFault s).evPos = s.evPos ∧ (declareFault s).evVel = s.evVel ∧ (declareFault s).evYaw = s.evYaw ∧ (declareFault s).gpsYaw = s.gpsYaw ∧ (declareFault s).magDist = s.magDist ∧ (declareFault s).fuseAspd = s.fuseAspd ∧ (declareFault s).magAligned = s.magAligned ∧ (declareFault s).magYawReq = s.magYawReq ∧ (declareFault s).magInhReq = s.magInhReq ∧ (declareFault s).velposReq = s.velposReq ∧ (declareFault s).inhibited = s.inhibited ∧ (declareFault s).nonMagPrev = s.nonMagPrev ∧ (declareFault s).yawObs = s.yawObs ∧ (declareFault s).biasObs = s.biasObs ∧ (declareFault s).nBad = s.nBad ∧ (declareFault s).declCovReset = s.declCovReset ∧ (declareFault s).tAlign = s.tAlign ∧ (declareFault s).tMov = s.tMov ∧ (declareFault s).tNotInh = s.tNotInh ∧ (declareFault s).tYaw = s.tYaw ∧ (declareFault s).gpsYawFaulty = s.gpsYawFaulty ∧ (declareFault s).doGsf = s.doGsf ∧ (declareFault s).gsfTime = s.gsfTime ∧ (declareFault s).gsfCount = s.gsfCount ∧ (declareFault s).tPos = s.tPos ∧ (declareFault s).tDelpos = s.tDelpos ∧ (declareFault s).tVel = s.tVel ∧ (declareFault s).tOf = s.tOf ∧ (declareFault s).tBeta = s.tBeta ∧ (declareFault s).tArsp = s.tArsp ∧ (declareFault s).tFake = s.tFake ∧ (declareFault s).tGpsYaw = s.tGpsYaw ∧ (declareFault s).hposPrev = s.hposPrev ∧ (declareFault s).hposOdom = s.hposOdom ∧ (declareFault s).synth = s.synth ∧ (declareFault s).flowReady = s.flowReady ∧ (declareFault s).flowInh = s.flowInh ∧ (declareFault s).tGood = s.tGood ∧ (declareFault s).tBad = s.tBad := by
  unfold declareFault; (try dsimp only); split_ifs <;> simp [*]
@[simp] theorem declareFault_tilt (s : St) : (declareFault s).tilt = s.tilt := (declareFault_frame s).1
@[simp] theorem declareFault_yawAlign (s : St) : (declareFault s).yawAlign = s.yawAlign := (declareFault_frame s).2.1
@[simp] theorem declareFault_gps (s : St) : (declareFault s).gps = s.gps := (declareFault_frame s).2.2.1
@[simp] theorem declareFault_optFlow (s : St) : (declareFault s).optFlow = s.optFlow := (declareFault_frame s).2.2.2.1
@[simp] theorem declareFault_magHdg (s : St) : (declareFault s).magHdg = s.magHdg := (declareFault_frame s).2.2.2.2.1
@[simp] theorem declareFault_mag3D (s : St) : (declareFault s).mag3D = s.mag3D := (declareFault_frame s).2.2.2.2.2.1
@[simp] theorem declareFault_magDec (s : St) : (declareFault s).magDec = s.magDec := (declareFault_frame s).2.2.2.2.2.2.1
@[simp] theorem declareFault_wind (s : St) : (declareFault s).wind = s.wind := (declareFault_frame s).2.2.2.2.2.2.2.1
@[simp] theorem declareFault_evPos (s : St) : (declareFault s).evPos = s.evPos := (declareFault_frame s).2.2.2.2.2.2.2.2.1
@[simp] theorem declareFault_evVel (s : St) : (declareFault s).evVel = s.evVel := (declareFault_frame s).2.2.2.2.2.2.2.2.2.1
@[simp] theorem declareFault_evYaw (s : St) : (declareFault s).evYaw = s.evYaw := (declareFault_frame s).2.2.2.2.2.2.2.2.2.2.1
@[simp] theorem declareFault_gpsYaw (s : St) : (declareFault s).gpsYaw = s.gpsYaw := (declareFault_frame s).2.2.2.2.2.2.2.2.2.2.2.1
@[simp] theorem declareFault_magDist (s : St) : (declareFault s).magDist = s.magDist := (declareFault_frame s).2.2.2.2.2.2.2.2.2.2.2.2.1
@[simp] theorem declareFault_fuseAspd (s : St) : (declareFault s).fuseAspd = s.fuseAspd := (declareFault_frame s).2.2.2.2.2.2.2.2.2.2.2.2.2.1
@[simp] theorem declareFault_magAligned (s : St) : (declareFault s).magAligned = s.magAligned := (declareFault_frame s).2.2.2.2.2.2.2.2.2.2.2.2.2.2.1
@[simp] theorem declareFault_magYawReq (s : St) : (declareFault s).magYawReq = s.magYawReq := (declareFault_frame s).2.2.2.2.2.2.2.2.2.2.2.2.2.2.2.1
@[simp] theorem declareFault_magInhReq (s : St) : (declareFault s).magInhReq = s.magInhReq := (declareFault_frame s).2.2.2.2.2.2.2.2.2.2.2.2.2.2.2.2.1
@[simp] theorem declareFault_velposReq (s : St) : (declareFault s).velposReq = s.velposReq := (declareFault_frame s).2.2.2.2.2.2.2.2.2.2.2.2.2.2.2.2.2.1
@[simp] theorem declareFault_inhibited (s : St) : (declareFault s).inhibited = s.inhibited := (declareFault_frame s).2.2.2.2.2.2.2.2.2.2.2.2.2.2.2.2.2.2.1
@[simp] theorem declareFault_nonMagPrev (s : St) : (declareFault s).nonMagPrev = s.nonMagPrev := (declareFault_frame s).2.2.2.2.2.2.2.2.2.2.2.2.2.2.2.2.2.2.2.1
@[simp] theorem declareFault_yawObs (s : St) : (declareFault s).yawObs = s.yawObs := (declareFault_frame s).2.2.2.2.2.2.2.2.2.2.2.2.2.2.2.2.2.2.2.2.1
@[simp] theorem declareFault_biasObs (s : St) : (declareFault s).biasObs = s.biasObs := (declareFault_frame s).2.2.2.2.2.2.2.2.2.2.2.2.2.2.2.2.2.2.2.2.2.1
@[simp] theorem declareFault_nBad (s : St) : (declareFault s).nBad = s.nBad := (declareFault_frame s).2.2.2.2.2.2.2.2.2.2.2.2.2.2.2.2.2.2.2.2.2.2.1
@[simp] theorem declareFault_declCovReset (s : St) : (declareFault s).declCovReset = s.declCovReset := (declareFault_frame s).2.2.2.2.2.2.2.2.2.2.2.2.2.2.2.2.2.2.2.2.2.2.2.1
@[simp] theorem declareFault_tAlign (s : St) : (declareFault s).tAlign = s.tAlign := (declareFault_frame s).2.2.2.2.2.2.2.2.2.2.2.2.2.2.2.2.2.2.2.2.2.2.2.2.1
@[simp] theorem declareFault_tMov (s : St) : (declareFault s).tMov = s.tMov := (declareFault_frame s).2.2.2.2.2.2.2.2.2.2.2.2.2.2.2.2.2.2.2.2.2.2.2.2.2.1
@[simp] theorem declareFault_tNotInh (s : St) : (declareFault s).tNotInh = s.tNotInh := (declareFault_frame s).2.2.2.2.2.2.2.2.2.2.2.2.2.2.2.2.2.2.2.2.2.2.2.2.2.2.1
@[simp] theorem declareFault_tYaw (s : St) : (declareFault s).tYaw = s.tYaw := (declareFault_frame s).2.2.2.2.2.2.2.2.2.2.2.2.2.2.2.2.2.2.2.2.2.2.2.2.2.2.2.1
@[simp] theorem declareFault_gpsYawFaulty (s : St) : (declareFault s).gpsYawFaulty = s.gpsYawFaulty := (declareFault_frame s).2.2.2.2.2.2.2.2.2.2.2.2.2.2.2.2.2.2.2.2.2.2.2.2.2.2.2.2.1
@[simp] theorem declareFault_doGsf (s : St) : (declareFault s).doGsf = s.doGsf := (declareFault_frame s).2.2.2.2.2.2.2.2.2.2.2.2.2.2.2.2.2.2.2.2.2.2.2.2.2.2.2.2.2.1
@[simp] theorem declareFault_gsfTime (s : St) : (declareFault s).gsfTime = s.gsfTime := (declareFault_frame s).2.2.2.2.2.2.2.2.2.2.2.2.2.2.2.2.2.2.2.2.2.2.2.2.2.2.2.2.2.2.1
@[simp] theorem declareFault_gsfCount (s : St) : (declareFault s).gsfCount = s.gsfCount := (declareFault_frame s).2.2.2.2.2.2.2.2.2.2.2.2.2.2.2.2.2.2.2.2.2.2.2.2.2.2.2.2.2.2.2.1
@[simp] theorem declareFault_tPos (s : St) : (declareFault s).tPos = s.tPos := (declareFault_frame s).2.2.2.2.2.2.2.2.2.2.2.2.2.2.2.2.2.2.2.2.2.2.2.2.2.2.2.2.2.2.2.2.1
@[simp] theorem declareFault_tDelpos (s : St) : (declareFault s).tDelpos = s.tDelpos := (declareFault_frame s).2.2.2.2.2.2.2.2.2.2.2.2.2.2.2.2.2.2.2.2.2.2.2.2.2.2.2.2.2.2.2.2.2.1
@[simp] theorem declareFault_tVel (s : St) : (declareFault s).tVel = s.tVel := (declareFault_frame s).2.2.2.2.2.2.2.2.2.2.2.2.2.2.2.2.2.2.2.2.2.2.2.2.2.2.2.2.2.2.2.2.2.2.1
@[simp] theorem declareFault_tOf (s : St) : (declareFault s).tOf = s.tOf := (declareFault_frame s).2.2.2.2.2.2.2.2.2.2.2.2.2.2.2.2.2.2.2.2.2.2.2.2.2.2.2.2.2.2.2.2.2.2.2.1
@[simp] theorem declareFault_tBeta (s : St) : (declareFault s).tBeta = s.tBeta := (declareFault_frame s).2.2.2.2.2.2.2.2.2.2.2.2.2.2.2.2.2.2.2.2.2.2.2.2.2.2.2.2.2.2.2.2.2.2.2.2.1
@[simp] theorem declareFault_tArsp (s : St) : (declareFault s).tArsp = s.tArsp := (declareFault_frame s).2.2.2.2.2.2.2.2.2.2.2.2.2.2.2.2.2.2.2.2.2.2.2.2.2.2.2.2.2.2.2.2.2.2.2.2.2.1
@[simp] theorem declareFault_tFake (s : St) : (declareFault s).tFake = s.tFake := (declareFault_frame s).2.2.2.2.2.2.2.2.2.2.2.2.2.2.2.2.2.2.2.2.2.2.2.2.2.2.2.2.2.2.2.2.2.2.2.2.2.2.1
@[simp] theorem declareFault_tGpsYaw (s : St) : (declareFault s).tGpsYaw = s.tGpsYaw := (declareFault_frame s).2.2.2.2.2.2.2.2.2.2.2.2.2.2.2.2.2.2.2.2.2.2.2.2.2.2.2.2.2.2.2.2.2.2.2.2.2.2.2.1
@[simp] theorem declareFault_hposPrev (s : St) : (declareFault s).hposPrev = s.hposPrev := (declareFault_frame s).2.2.2.2.2.2.2.2.2.2.2.2.2.2.2.2.2.2.2.2.2.2.2.2.2.2.2.2.2.2.2.2.2.2.2.2.2.2.2.2.1
@[simp] theorem declareFault_hposOdom (s : St) : (declareFault s).hposOdom = s.hposOdom := (declareFault_frame s).2.2.2.2.2.2.2.2.2.2.2.2.2.2.2.2.2.2.2.2.2.2.2.2.2.2.2.2.2.2.2.2.2.2.2.2.2.2.2.2.2.1
@[simp] theorem declareFault_synth (s : St) : (declareFault s).synth = s.synth := (declareFault_frame s).2.2.2.2.2.2.2.2.2.2.2.2.2.2.2.2.2.2.2.2.2.2.2.2.2.2.2.2.2.2.2.2.2.2.2.2.2.2.2.2.2.2.1
@[simp] theorem declareFault_flowReady (s : St) : (declareFault s).flowReady = s.flowReady := (declareFault_frame s).2.2.2.2.2.2.2.2.2.2.2.2.2.2.2.2.2.2.2.2.2.2.2.2.2.2.2.2.2.2.2.2.2.2.2.2.2.2.2.2.2.2.2.1
@[simp] theorem declareFault_flowInh (s : St) : (declareFault s).flowInh = s.flowInh := (declareFault_frame s).2.2.2.2.2.2.2.2.2.2.2.2.2.2.2.2.2.2.2.2.2.2.2.2.2.2.2.2.2.2.2.2.2.2.2.2.2.2.2.2.2.2.2.2.1
@[simp] theorem declareFault_tGood (s : St) : (declareFault s).tGood = s.tGood := (declareFault_frame s).2.2.2.2.2.2.2.2.2.2.2.2.2.2.2.2.2.2.2.2.2.2.2.2.2.2.2.2.2.2.2.2.2.2.2.2.2.2.2.2.2.2.2.2.2.1
@[simp] theorem declareFault_tBad (s : St) : (declareFault s).tBad = s.tBad := (declareFault_frame s).2.2.2.2.2.2.2.2.2.2.2.2.2.2.2.2.2.2.2.2.2.2.2.2.2.2.2.2.2.2.2.2.2.2.2.2.2.2.2.2.2.2.2.2.2.2

theorem courseYaw_frame (s : St) :
    (courseYaw s).tilt = s.tilt ∧ (courseYaw s).yawAlign = s.yawAlign ∧ (courseYaw s).gps = s.gps ∧ (courseYaw s).optFlow = s.optFlow ∧ (courseYaw s).magHdg = s.magHdg ∧ (courseYaw s).mag3D = s.mag3D ∧ (courseYaw s).magDec = s.magDec ∧ (courseYaw s).wind = s.wind ∧ (courseYaw s).evPos = s.evPos ∧ (courseYaw s).evVel = s.evVel ∧ (courseYaw s).evYaw = s.evYaw ∧ (courseYaw s).gpsYaw = s.gpsYaw ∧ (courseYaw s).magDist = s.magDist ∧ (courseYaw s).magFault = s.magFault ∧ (courseYaw s).fuseAspd = s.fuseAspd ∧ (courseYaw s).magYawReq = s.magYawReq ∧ (courseYaw s).magInhReq = s.magInhReq ∧ (courseYaw s).velposReq = s.velposReq ∧ (courseYaw s).inhibited = s.inhibited ∧ (courseYaw s).nonMagPrev = s.nonMagPrev ∧ (courseYaw s).yawObs = s.yawObs ∧ (courseYaw s).biasObs = s.biasObs ∧ (courseYaw s).nBad = s.nBad ∧ (courseYaw s).declCovReset = s.declCovReset ∧ (courseYaw s).tAlign = s.tAlign ∧ (courseYaw s).tMov = s.tMov ∧ (courseYaw s).tNotInh = s.tNotInh ∧ (courseYaw s).tYaw = s.tYaw ∧ (courseYaw s).gpsYawFaulty = s.gpsYawFaulty ∧ (courseYaw s).doGsf = s.doGsf ∧ (courseYaw s).gsfTime = s.gsfTime ∧ (courseYaw s).gsfCount = s.gsfCount ∧ (courseYaw s).tPos = s.tPos ∧ (courseYaw s).tDelpos = s.tDelpos ∧ (courseYaw s).tVel = s.tVel ∧ (courseYaw s).tOf = s.tOf ∧ (courseYaw s).tBeta = s.tBeta ∧ (courseYaw s).tArsp = s.tArsp ∧ (courseYaw s).tFake = s.tFake ∧ (courseYaw s).tGpsYaw = s.tGpsYaw ∧ (courseYaw s).hposPrev = s.hposPrev ∧ (courseYaw s).hposOdom = s.hposOdom ∧ (courseYaw s).synth = s.synth ∧ (courseYaw s).flowReady = s.flowReady ∧ (courseYaw s).flowInh = s.flowInh ∧ (courseYaw s).tGood = s.tGood ∧ (courseYaw s).tBad = s.tBad := by
  unfold courseYaw; (try dsimp only); split_ifs <;> simp [*]
@[simp] theorem courseYaw_tilt (s : St) : (courseYaw s).tilt = s.tilt := (courseYaw_frame s).1
@[simp] theorem courseYaw_yawAlign (s : St) : (courseYaw s).yawAlign = s.yawAlign := (courseYaw_frame s).2.1
@[simp] theorem courseYaw_gps (s : St) : (courseYaw s).gps = s.gps := (courseYaw_frame s).2.2.1
@[simp] theorem courseYaw_optFlow (s : St) : (courseYaw s).optFlow = s.optFlow := (courseYaw_frame s).2.2.2.1
@[simp] theorem courseYaw_magHdg (s : St) : (courseYaw s).magHdg = s.magHdg := (courseYaw_frame s).2.2.2.2.1
@[simp] theorem courseYaw_mag3D (s : St) : (courseYaw s).mag3D = s.mag3D := (courseYaw_frame s).2.2.2.2.2.1
@[simp] theorem courseYaw_magDec (s : St) : (courseYaw s).magDec = s.magDec := (courseYaw_frame s).2.2.2.2.2.2.1
@[simp] theorem courseYaw_wind (s : St) : (courseYaw s).wind = s.wind := (courseYaw_frame s).2.2.2.2.2.2.2.1
@[simp] theorem courseYaw_evPos (s : St) : (courseYaw s).evPos = s.evPos := (courseYaw_frame s).2.2.2.2.2.2.2.2.1
@[simp] theorem courseYaw_evVel (s : St) : (courseYaw s).evVel = s.evVel := (courseYaw_frame s).2.2.2.2.2.2.2.2.2.1
@[simp] theorem courseYaw_evYaw (s : St) : (courseYaw s).evYaw = s.evYaw := (courseYaw_frame s).2.2.2.2.2.2.2.2.2.2.1
@[simp] theorem courseYaw_gpsYaw (s : St) : (courseYaw s).gpsYaw = s.gpsYaw := (courseYaw_frame s).2.2.2.2.2.2.2.2.2.2.2.1
@[simp] theorem courseYaw_magDist (s : St) : (courseYaw s).magDist = s.magDist := (courseYaw_frame s).2.2.2.2.2.2.2.2.2.2.2.2.1
@[simp] theorem courseYaw_magFault (s : St) : (courseYaw s).magFault = s.magFault := (courseYaw_frame s).2.2.2.2.2.2.2.2.2.2.2.2.2.1
@[simp] theorem courseYaw_fuseAspd (s : St) : (courseYaw s).fuseAspd = s.fuseAspd := (courseYaw_frame s).2.2.2.2.2.2.2.2.2.2.2.2.2.2.1
@[simp] theorem courseYaw_magYawReq (s : St) : (courseYaw s).magYawReq = s.magYawReq := (courseYaw_frame s).2.2.2.2.2.2.2.2.2.2.2.2.2.2.2.1
@[simp] theorem courseYaw_magInhReq (s : St) : (courseYaw s).magInhReq = s.magInhReq := (courseYaw_frame s).2.2.2.2.2.2.2.2.2.2.2.2.2.2.2.2.1
@[simp] theorem courseYaw_velposReq (s : St) : (courseYaw s).velposReq = s.velposReq := (courseYaw_frame s).2.2.2.2.2.2.2.2.2.2.2.2.2.2.2.2.2.1
@[simp] theorem courseYaw_inhibited (s : St) : (courseYaw s).inhibited = s.inhibited := (courseYaw_frame s).2.2.2.2.2.2.2.2.2.2.2.2.2.2.2.2.2.2.1
@[simp] theorem courseYaw_nonMagPrev (s : St) : (courseYaw s).nonMagPrev = s.nonMagPrev := (courseYaw_frame s).2.2.2.2.2.2.2.2.2.2.2.2.2.2.2.2.2.2.2.1
@[simp] theorem courseYaw_yawObs (s : St) : (courseYaw s).yawObs = s.yawObs := (courseYaw_frame s).2.2.2.2.2.2.2.2.2.2.2.2.2.2.2.2.2.2.2.2.1
@[simp] theorem courseYaw_biasObs (s : St) : (courseYaw s).biasObs = s.biasObs := (courseYaw_frame s).2.2.2.2.2.2.2.2.2.2.2.2.2.2.2.2.2.2.2.2.2.1
@[simp] theorem courseYaw_nBad (s : St) : (courseYaw s).nBad = s.nBad := (courseYaw_frame s).2.2.2.2.2.2.2.2.2.2.2.2.2.2.2.2.2.2.2.2.2.2.1
@[simp] theorem courseYaw_declCovReset (s : St) : (courseYaw s).declCovReset = s.declCovReset := (courseYaw_frame s).2.2.2.2.2.2.2.2.2.2.2.2.2.2.2.2.2.2.2.2.2.2.2.1
@[simp] theorem courseYaw_tAlign (s : St) : (courseYaw s).tAlign = s.tAlign := (courseYaw_frame s).2.2.2.2.2.2.2.2.2.2.2.2.2.2.2.2.2.2.2.2.2.2.2.2.1
@[simp] theorem courseYaw_tMov (s : St) : (courseYaw s).tMov = s.tMov := (courseYaw_frame s).2.2.2.2.2.2.2.2.2.2.2.2.2.2.2.2.2.2.2.2.2.2.2.2.2.1
@[simp] theorem courseYaw_tNotInh (s : St) : (courseYaw s).tNotInh = s.tNotInh := (courseYaw_frame s).2.2.2.2.2.2.2.2.2.2.2.2.2.2.2.2.2.2.2.2.2.2.2.2.2.2.1
@[simp] theorem courseYaw_tYaw (s : St) : (courseYaw s).tYaw = s.tYaw := (courseYaw_frame s).2.2.2.2.2.2.2.2.2.2.2.2.2.2.2.2.2.2.2.2.2.2.2.2.2.2.2.1
@[simp] theorem courseYaw_gpsYawFaulty (s : St) : (courseYaw s).gpsYawFaulty = s.gpsYawFaulty := (courseYaw_frame s).2.2.2.2.2.2.2.2.2.2.2.2.2.2.2.2.2.2.2.2.2.2.2.2.2.2.2.2.1
@[simp] theorem courseYaw_doGsf (s : St) : (courseYaw s).doGsf = s.doGsf := (courseYaw_frame s).2.2.2.2.2.2.2.2.2.2.2.2.2.2.2.2.2.2.2.2.2.2.2.2.2.2.2.2.2.1
@[simp] theorem courseYaw_gsfTime (s : St) : (courseYaw s).gsfTime = s.gsfTime := (courseYaw_frame s).2.2.2.2.2.2.2.2.2.2.2.2.2.2.2.2.2.2.2.2.2.2.2.2.2.2.2.2.2.2.1
@[simp] theorem courseYaw_gsfCount (s : St) : (courseYaw s).gsfCount = s.gsfCount := (courseYaw_frame s).2.2.2.2.2.2.2.2.2.2.2.2.2.2.2.2.2.2.2.2.2.2.2.2.2.2.2.2.2.2.2.1
@[simp] theorem courseYaw_tPos (s : St) : (courseYaw s).tPos = s.tPos := (courseYaw_frame s).2.2.2.2.2.2.2.2.2.2.2.2.2.2.2.2.2.2.2.2.2.2.2.2.2.2.2.2.2.2.2.2.1
@[simp] theorem courseYaw_tDelpos (s : St) : (courseYaw s).tDelpos = s.tDelpos := (courseYaw_frame s).2.2.2.2.2.2.2.2.2.2.2.2.2.2.2.2.2.2.2.2.2.2.2.2.2.2.2.2.2.2.2.2.2.1
@[simp] theorem courseYaw_tVel (s : St) : (courseYaw s).tVel = s.tVel := (courseYaw_frame s).2.2.2.2.2.2.2.2.2.2.2.2.2.2.2.2.2.2.2.2.2.2.2.2.2.2.2.2.2.2.2.2.2.2.1
@[simp] theorem courseYaw_tOf (s : St) : (courseYaw s).tOf = s.tOf := (courseYaw_frame s).2.2.2.2.2.2.2.2.2.2.2.2.2.2.2.2.2.2.2.2.2.2.2.2.2.2.2.2.2.2.2.2.2.2.2.1
@[simp] theorem courseYaw_tBeta (s : St) : (courseYaw s).tBeta = s.tBeta := (courseYaw_frame s).2.2.2.2.2.2.2.2.2.2.2.2.2.2.2.2.2.2.2.2.2.2.2.2.2.2.2.2.2.2.2.2.2.2.2.2.1
@[simp] theorem courseYaw_tArsp (s : St) : (courseYaw s).tArsp = s.tArsp := (courseYaw_frame s).2.2.2.2.2.2.2.2.2.2.2.2.2.2.2.2.2.2.2.2.2.2.2.2.2.2.2.2.2.2.2.2.2.2.2.2.2.1
@[simp] theorem courseYaw_tFake (s : St) : (courseYaw s).tFake = s.tFake := (courseYaw_frame s).2.2.2.2.2.2.2.2.2.2.2.2.2.2.2.2.2.2.2.2.2.2.2.2.2.2.2.2.2.2.2.2.2.2.2.2.2.2.1
@[simp] theorem courseYaw_tGpsYaw (s : St) : (courseYaw s).tGpsYaw = s.tGpsYaw := (courseYaw_frame s).2.2.2.2.2.2.2.2.2.2.2.2.2.2.2.2.2.2.2.2.2.2.2.2.2.2.2.2.2.2.2.2.2.2.2.2.2.2.2.1
@[simp] theorem courseYaw_hposPrev (s : St) : (courseYaw s).hposPrev = s.hposPrev := (courseYaw_frame s).2.2.2.2.2.2.2.2.2.2.2.2.2.2.2.2.2.2.2.2.2.2.2.2.2.2.2.2.2.2.2.2.2.2.2.2.2.2.2.2.1
@[simp] theorem courseYaw_hposOdom (s : St) : (courseYaw s).hposOdom = s.hposOdom := (courseYaw_frame s).2.2.2.2.2.2.2.2.2.2.2.2.2.2.2.2.2.2.2.2.2.2.2.2.2.2.2.2.2.2.2.2.2.2.2.2.2.2.2.2.2.1
@[simp] theorem courseYaw_synth (s : St) : (courseYaw s).synth = s.synth := (courseYaw_frame s).2.2.2.2.2.2.2.2.2.2.2.2.2.2.2.2.2.2.2.2.2.2.2.2.2.2.2.2.2.2.2.2.2.2.2.2.2.2.2.2.2.2.1
@[simp] theorem courseYaw_flowReady (s : St) : (courseYaw s).flowReady = s.flowReady := (courseYaw_frame s).2.2.2.2.2.2.2.2.2.2.2.2.2.2.2.2.2.2.2.2.2.2.2.2.2.2.2.2.2.2.2.2.2.2.2.2.2.2.2.2.2.2.2.1
@[simp] theorem courseYaw_flowInh (s : St) : (courseYaw s).flowInh = s.flowInh := (courseYaw_frame s).2.2.2.2.2.2.2.2.2.2.2.2.2.2.2.2.2.2.2.2.2.2.2.2.2.2.2.2.2.2.2.2.2.2.2.2.2.2.2.2.2.2.2.2.1
@[simp] theorem courseYaw_tGood (s : St) : (courseYaw s).tGood = s.tGood := (courseYaw_frame s).2.2.2.2.2.2.2.2.2.2.2.2.2.2.2.2.2.2.2.2.2.2.2.2.2.2.2.2.2.2.2.2.2.2.2.2.2.2.2.2.2.2.2.2.2.1
@[simp] theorem courseYaw_tBad (s : St) : (courseYaw s).tBad = s.tBad := (courseYaw_frame s).2.2.2.2.2.2.2.2.2.2.2.2.2.2.2.2.2.2.2.2.2.2.2.2.2.2.2.2.2.2.2.2.2.2.2.2.2.2.2.2.2.2.2.2.2.2

theorem courseAlign_frame (x : In) (s : St) :
    (courseAlign x s).tilt = s.tilt ∧ (courseAlign x s).yawAlign = s.yawAlign ∧ (courseAlign x s).gps = s.gps ∧ (courseAlign x s).optFlow = s.optFlow ∧ (courseAlign x s).magHdg = s.magHdg ∧ (courseAlign x s).mag3D = s.mag3D ∧ (courseAlign x s).magDec = s.magDec ∧ (courseAlign x s).wind = s.wind ∧ (courseAlign x s).evPos = s.evPos ∧ (courseAlign x s).evVel = s.evVel ∧ (courseAlign x s).evYaw = s.evYaw ∧ (courseAlign x s).gpsYaw = s.gpsYaw ∧ (courseAlign x s).magDist = s.magDist ∧ (courseAlign x s).fuseAspd = s.fuseAspd ∧ (courseAlign x s).magYawReq = s.magYawReq ∧ (courseAlign x s).magInhReq = s.magInhReq ∧ (courseAlign x s).inhibited = s.inhibited ∧ (courseAlign x s).nonMagPrev = s.nonMagPrev ∧ (courseAlign x s).yawObs = s.yawObs ∧ (courseAlign x s).biasObs = s.biasObs ∧ (courseAlign x s).tMov = s.tMov ∧ (courseAlign x s).tNotInh = s.tNotInh ∧ (courseAlign x s).tYaw = s.tYaw ∧ (courseAlign x s).gpsYawFaulty = s.gpsYawFaulty ∧ (courseAlign x s).doGsf = s.doGsf ∧ (courseAlign x s).gsfTime = s.gsfTime ∧ (courseAlign x s).gsfCount = s.gsfCount ∧ (courseAlign x s).tPos = s.tPos ∧ (courseAlign x s).tDelpos = s.tDelpos ∧ (courseAlign x s).tVel = s.tVel ∧ (courseAlign x s).tOf = s.tOf ∧ (courseAlign x s).tBeta = s.tBeta ∧ (courseAlign x s).tArsp = s.tArsp ∧ (courseAlign x s).tFake = s.tFake ∧ (courseAlign x s).tGpsYaw = s.tGpsYaw ∧ (courseAlign x s).hposPrev = s.hposPrev ∧ (courseAlign x s).hposOdom = s.hposOdom ∧ (courseAlign x s).synth = s.synth ∧ (courseAlign x s).flowReady = s.flowReady ∧ (courseAlign x s).flowInh = s.flowInh ∧ (courseAlign x s).tGood = s.tGood ∧ (courseAlign x s).tBad = s.tBad := by
  unfold courseAlign; (try dsimp only); split_ifs <;> simp [*]
@[simp] theorem courseAlign_tilt (x : In) (s : St) : (courseAlign x s).tilt = s.tilt := (courseAlign_frame x s).1
@[simp] theorem courseAlign_yawAlign (x : In) (s : St) : (courseAlign x s).yawAlign = s.yawAlign := (courseAlign_frame x s).2.1
@[simp] theorem courseAlign_gps (x : In) (s : St) : (courseAlign x s).gps = s.gps := (courseAlign_frame x s).2.2.1
@[simp] theorem courseAlign_optFlow (x : In) (s : St) : (courseAlign x s).optFlow = s.optFlow := (courseAlign_frame x s).2.2.2.1
@[simp] theorem courseAlign_magHdg (x : In) (s : St) : (courseAlign x s).magHdg = s.magHdg := (courseAlign_frame x s).2.2.2.2.1
@[simp] theorem courseAlign_mag3D (x : In) (s : St) : (courseAlign x s).mag3D = s.mag3D := (courseAlign_frame x s).2.2.2.2.2.1
@[simp] theorem courseAlign_magDec (x : In) (s : St) : (courseAlign x s).magDec = s.magDec := (courseAlign_frame x s).2.2.2.2.2.2.1
@[simp] theorem courseAlign_wind (x : In) (s : St) : (courseAlign x s).wind = s.wind := (courseAlign_frame x s).2.2.2.2.2.2.2.1
@[simp] theorem courseAlign_evPos (x : In) (s : St) : (courseAlign x s).evPos = s.evPos := (courseAlign_frame x s).2.2.2.2.2.2.2.2.1
@[simp] theorem courseAlign_evVel (x : In) (s : St) : (courseAlign x s).evVel = s.evVel := (courseAlign_frame x s).2.2.2.2.2.2.2.2.2.1
@[simp] theorem courseAlign_evYaw (x : In) (s : St) : (courseAlign x s).evYaw = s.evYaw := (courseAlign_frame x s).2.2.2.2.2.2.2.2.2.2.1
@[simp] theorem courseAlign_gpsYaw (x : In) (s : St) : (courseAlign x s).gpsYaw = s.gpsYaw := (courseAlign_frame x s).2.2.2.2.2.2.2.2.2.2.2.1
@[simp] theorem courseAlign_magDist (x : In) (s : St) : (courseAlign x s).magDist = s.magDist := (courseAlign_frame x s).2.2.2.2.2.2.2.2.2.2.2.2.1
@[simp] theorem courseAlign_fuseAspd (x : In) (s : St) : (courseAlign x s).fuseAspd = s.fuseAspd := (courseAlign_frame x s).2.2.2.2.2.2.2.2.2.2.2.2.2.1
@[simp] theorem courseAlign_magYawReq (x : In) (s : St) : (courseAlign x s).magYawReq = s.magYawReq := (courseAlign_frame x s).2.2.2.2.2.2.2.2.2.2.2.2.2.2.1
@[simp] theorem courseAlign_magInhReq (x : In) (s : St) : (courseAlign x s).magInhReq = s.magInhReq := (courseAlign_frame x s).2.2.2.2.2.2.2.2.2.2.2.2.2.2.2.1
@[simp] theorem courseAlign_inhibited (x : In) (s : St) : (courseAlign x s).inhibited = s.inhibited := (courseAlign_frame x s).2.2.2.2.2.2.2.2.2.2.2.2.2.2.2.2.1
@[simp] theorem courseAlign_nonMagPrev (x : In) (s : St) : (courseAlign x s).nonMagPrev = s.nonMagPrev := (courseAlign_frame x s).2.2.2.2.2.2.2.2.2.2.2.2.2.2.2.2.2.1
@[simp] theorem courseAlign_yawObs (x : In) (s : St) : (courseAlign x s).yawObs = s.yawObs := (courseAlign_frame x s).2.2.2.2.2.2.2.2.2.2.2.2.2.2.2.2.2.2.1
@[simp] theorem courseAlign_biasObs (x : In) (s : St) : (courseAlign x s).biasObs = s.biasObs := (courseAlign_frame x s).2.2.2.2.2.2.2.2.2.2.2.2.2.2.2.2.2.2.2.1
@[simp] theorem courseAlign_tMov (x : In) (s : St) : (courseAlign x s).tMov = s.tMov := (courseAlign_frame x s).2.2.2.2.2.2.2.2.2.2.2.2.2.2.2.2.2.2.2.2.1
@[simp] theorem courseAlign_tNotInh (x : In) (s : St) : (courseAlign x s).tNotInh = s.tNotInh := (courseAlign_frame x s).2.2.2.2.2.2.2.2.2.2.2.2.2.2.2.2.2.2.2.2.2.1
@[simp] theorem courseAlign_tYaw (x : In) (s : St) : (courseAlign x s).tYaw = s.tYaw := (courseAlign_frame x s).2.2.2.2.2.2.2.2.2.2.2.2.2.2.2.2.2.2.2.2.2.2.1
@[simp] theorem courseAlign_gpsYawFaulty (x : In) (s : St) : (courseAlign x s).gpsYawFaulty = s.gpsYawFaulty := (courseAlign_frame x s).2.2.2.2.2.2.2.2.2.2.2.2.2.2.2.2.2.2.2.2.2.2.2.1
@[simp] theorem courseAlign_doGsf (x : In) (s : St) : (courseAlign x s).doGsf = s.doGsf := (courseAlign_frame x s).2.2.2.2.2.2.2.2.2.2.2.2.2.2.2.2.2.2.2.2.2.2.2.2.1
@[simp] theorem courseAlign_gsfTime (x : In) (s : St) : (courseAlign x s).gsfTime = s.gsfTime := (courseAlign_frame x s).2.2.2.2.2.2.2.2.2.2.2.2.2.2.2.2.2.2.2.2.2.2.2.2.2.1
@[simp] theorem courseAlign_gsfCount (x : In) (s : St) : (courseAlign x s).gsfCount = s.gsfCount := (courseAlign_frame x s).2.2.2.2.2.2.2.2.2.2.2.2.2.2.2.2.2.2.2.2.2.2.2.2.2.2.1
@[simp] theorem courseAlign_tPos (x : In) (s : St) : (courseAlign x s).tPos = s.tPos := (courseAlign_frame x s).2.2.2.2.2.2.2.2.2.2.2.2.2.2.2.2.2.2.2.2.2.2.2.2.2.2.2.1
@[simp] theorem courseAlign_tDelpos (x : In) (s : St) : (courseAlign x s).tDelpos = s.tDelpos := (courseAlign_frame x s).2.2.2.2.2.2.2.2.2.2.2.2.2.2.2.2.2.2.2.2.2.2.2.2.2.2.2.2.1
@[simp] theorem courseAlign_tVel (x : In) (s : St) : (courseAlign x s).tVel = s.tVel := (courseAlign_frame x s).2.2.2.2.2.2.2.2.2.2.2.2.2.2.2.2.2.2.2.2.2.2.2.2.2.2.2.2.2.1
@[simp] theorem courseAlign_tOf (x : In) (s : St) : (courseAlign x s).tOf = s.tOf := (courseAlign_frame x s).2.2.2.2.2.2.2.2.2.2.2.2.2.2.2.2.2.2.2.2.2.2.2.2.2.2.2.2.2.2.1
@[simp] theorem courseAlign_tBeta (x : In) (s : St) : (courseAlign x s).tBeta = s.tBeta := (courseAlign_frame x s).2.2.2.2.2.2.2.2.2.2.2.2.2.2.2.2.2.2.2.2.2.2.2.2.2.2.2.2.2.2.2.1
@[simp] theorem courseAlign_tArsp (x : In) (s : St) : (courseAlign x s).tArsp = s.tArsp := (courseAlign_frame x s).2.2.2.2.2.2.2.2.2.2.2.2.2.2.2.2.2.2.2.2.2.2.2.2.2.2.2.2.2.2.2.2.1
@[simp] theorem courseAlign_tFake (x : In) (s : St) : (courseAlign x s).tFake = s.tFake := (courseAlign_frame x s).2.2.2.2.2.2.2.2.2.2.2.2.2.2.2.2.2.2.2.2.2.2.2.2.2.2.2.2.2.2.2.2.2.1
@[simp] theorem courseAlign_tGpsYaw (x : In) (s : St) : (courseAlign x s).tGpsYaw = s.tGpsYaw := (courseAlign_frame x s).2.2.2.2.2.2.2.2.2.2.2.2.2.2.2.2.2.2.2.2.2.2.2.2.2.2.2.2.2.2.2.2.2.2.1
@[simp] theorem courseAlign_hposPrev (x : In) (s : St) : (courseAlign x s).hposPrev = s.hposPrev := (courseAlign_frame x s).2.2.2.2.2.2.2.2.2.2.2.2.2.2.2.2.2.2.2.2.2.2.2.2.2.2.2.2.2.2.2.2.2.2.2.1
@[simp] theorem courseAlign_hposOdom (x : In) (s : St) : (courseAlign x s).hposOdom = s.hposOdom := (courseAlign_frame x s).2.2.2.2.2.2.2.2.2.2.2.2.2.2.2.2.2.2.2.2.2.2.2.2.2.2.2.2.2.2.2.2.2.2.2.2.1
@[simp] theorem courseAlign_synth (x : In) (s : St) : (courseAlign x s).synth = s.synth := (courseAlign_frame x s).2.2.2.2.2.2.2.2.2.2.2.2.2.2.2.2.2.2.2.2.2.2.2.2.2.2.2.2.2.2.2.2.2.2.2.2.2.1
@[simp] theorem courseAlign_flowReady (x : In) (s : St) : (courseAlign x s).flowReady = s.flowReady := (courseAlign_frame x s).2.2.2.2.2.2.2.2.2.2.2.2.2.2.2.2.2.2.2.2.2.2.2.2.2.2.2.2.2.2.2.2.2.2.2.2.2.2.1
@[simp] theorem courseAlign_flowInh (x : In) (s : St) : (courseAlign x s).flowInh = s.flowInh := (courseAlign_frame x s).2.2.2.2.2.2.2.2.2.2.2.2.2.2.2.2.2.2.2.2.2.2.2.2.2.2.2.2.2.2.2.2.2.2.2.2.2.2.2.1
@[simp] theorem courseAlign_tGood (x : In) (s : St) : (courseAlign x s).tGood = s.tGood := (courseAlign_frame x s).2.2.2.2.2.2.2.2.2.2.2.2.2.2.2.2.2.2.2.2.2.2.2.2.2.2.2.2.2.2.2.2.2.2.2.2.2.2.2.2.1
@[simp] theorem courseAlign_tBad (x : In) (s : St) : (courseAlign x s).tBad = s.tBad := (courseAlign_frame x s).2.2.2.2.2.2.2.2.2.2.2.2.2.2.2.2.2.2.2.2.2.2.2.2.2.2.2.2.2.2.2.2.2.2.2.2.2.2.2.2.2

theorem realignYawGps_frame (x : In) (s : St) :
    (realignYawGps x s).1.tilt = s.tilt ∧ (realignYawGps x s).1.yawAlign = s.yawAlign ∧ (realignYawGps x s).1.gps = s.gps ∧ (realignYawGps x s).1.optFlow = s.optFlow ∧ (realignYawGps x s).1.magDec = s.magDec ∧ (realignYawGps x s).1.wind = s.wind ∧ (realignYawGps x s).1.evPos = s.evPos ∧ (realignYawGps x s).1.evVel = s.evVel ∧ (realignYawGps x s).1.evYaw = s.evYaw ∧ (realignYawGps x s).1.gpsYaw = s.gpsYaw ∧ (realignYawGps x s).1.magDist = s.magDist ∧ (realignYawGps x s).1.fuseAspd = s.fuseAspd ∧ (realignYawGps x s).1.magYawReq = s.magYawReq ∧ (realignYawGps x s).1.magInhReq = s.magInhReq ∧ (realignYawGps x s).1.inhibited = s.inhibited ∧ (realignYawGps x s).1.nonMagPrev = s.nonMagPrev ∧ (realignYawGps x s).1.yawObs = s.yawObs ∧ (realignYawGps x s).1.biasObs = s.biasObs ∧ (realignYawGps x s).1.tMov = s.tMov ∧ (realignYawGps x s).1.tNotInh = s.tNotInh ∧ (realignYawGps x s).1.tYaw = s.tYaw ∧ (realignYawGps x s).1.gpsYawFaulty = s.gpsYawFaulty ∧ (realignYawGps x s).1.doGsf = s.doGsf ∧ (realignYawGps x s).1.gsfTime = s.gsfTime ∧ (realignYawGps x s).1.gsfCount = s.gsfCount ∧ (realignYawGps x s).1.tPos = s.tPos ∧ (realignYawGps x s).1.tDelpos = s.tDelpos ∧ (realignYawGps x s).1.tVel = s.tVel ∧ (realignYawGps x s).1.tOf = s.tOf ∧ (realignYawGps x s).1.tBeta = s.tBeta ∧ (realignYawGps x s).1.tArsp = s.tArsp ∧ (realignYawGps x s).1.tFake = s.tFake ∧ (realignYawGps x s).1.tGpsYaw = s.tGpsYaw ∧ (realignYawGps x s).1.hposPrev = s.hposPrev ∧ (realignYawGps x s).1.hposOdom = s.hposOdom ∧ (realignYawGps x s).1.synth = s.synth ∧ (realignYawGps x s).1.flowReady = s.flowReady ∧ (realignYawGps x s).1.flowInh = s.flowInh ∧ (realignYawGps x s).1.tGood = s.tGood ∧ (realignYawGps x s).1.tBad = s.tBad := by
  unfold realignYawGps; (try dsimp only); split_ifs <;> simp [*]
@[simp] theorem realignYawGps_tilt (x : In) (s : St) : (realignYawGps x s).1.tilt = s.tilt := (realignYawGps_frame x s).1
@[simp] theorem realignYawGps_yawAlign (x : In) (s : St) : (realignYawGps x s).1.yawAlign = s.yawAlign := (realignYawGps_frame x s).2.1
@[simp] theorem realignYawGps_gps (x : In) (s : St) : (realignYawGps x s).1.gps = s.gps := (realignYawGps_frame x s).2.2.1
@[simp] theorem realignYawGps_optFlow (x : In) (s : St) : (realignYawGps x s).1.optFlow = s.optFlow := (realignYawGps_frame x s).2.2.2.1
@[simp] theorem realignYawGps_magDec (x : In) (s : St) : (realignYawGps x s).1.magDec = s.magDec := (realignYawGps_frame x s).2.2.2.2.1
@[simp] theorem realignYawGps_wind (x : In) (s : St) : (realignYawGps x s).1.wind = s.wind := (realignYawGps_frame x s).2.2.2.2.2.1
@[simp] theorem realignYawGps_evPos (x : In) (s : St) : (realignYawGps x s).1.evPos = s.evPos := (realignYawGps_frame x s).2.2.2.2.2.2.1
@[simp] theorem realignYawGps_evVel (x : In) (s : St) : (realignYawGps x s).1.evVel = s.evVel := (realignYawGps_frame x s).2.2.2.2.2.2.2.1
@[simp] theorem realignYawGps_evYaw (x : In) (s : St) : (realignYawGps x s).1.evYaw = s.evYaw := (realignYawGps_frame x s).2.2.2.2.2.2.2.2.1
@[simp] theorem realignYawGps_gpsYaw (x : In) (s : St) : (realignYawGps x s).1.gpsYaw = s.gpsYaw := (realignYawGps_frame x s).2.2.2.2.2.2.2.2.2.1
@[simp] theorem realignYawGps_magDist (x : In) (s : St) : (realignYawGps x s).1.magDist = s.magDist := (realignYawGps_frame x s).2.2.2.2.2.2.2.2.2.2.1
@[simp] theorem realignYawGps_fuseAspd (x : In) (s : St) : (realignYawGps x s).1.fuseAspd = s.fuseAspd := (realignYawGps_frame x s).2.2.2.2.2.2.2.2.2.2.2.1
@[simp] theorem realignYawGps_magYawReq (x : In) (s : St) : (realignYawGps x s).1.magYawReq = s.magYawReq := (realignYawGps_frame x s).2.2.2.2.2.2.2.2.2.2.2.2.1
@[simp] theorem realignYawGps_magInhReq (x : In) (s : St) : (realignYawGps x s).1.magInhReq = s.magInhReq := (realignYawGps_frame x s).2.2.2.2.2.2.2.2.2.2.2.2.2.1
@[simp] theorem realignYawGps_inhibited (x : In) (s : St) : (realignYawGps x s).1.inhibited = s.inhibited := (realignYawGps_frame x s).2.2.2.2.2.2.2.2.2.2.2.2.2.2.1
@[simp] theorem realignYawGps_nonMagPrev (x : In) (s : St) : (realignYawGps x s).1.nonMagPrev = s.nonMagPrev := (realignYawGps_frame x s).2.2.2.2.2.2.2.2.2.2.2.2.2.2.2.1
@[simp] theorem realignYawGps_yawObs (x : In) (s : St) : (realignYawGps x s).1.yawObs = s.yawObs := (realignYawGps_frame x s).2.2.2.2.2.2.2.2.2.2.2.2.2.2.2.2.1
@[simp] theorem realignYawGps_biasObs (x : In) (s : St) : (realignYawGps x s).1.biasObs = s.biasObs := (realignYawGps_frame x s).2.2.2.2.2.2.2.2.2.2.2.2.2.2.2.2.2.1
@[simp] theorem realignYawGps_tMov (x : In) (s : St) : (realignYawGps x s).1.tMov = s.tMov := (realignYawGps_frame x s).2.2.2.2.2.2.2.2.2.2.2.2.2.2.2.2.2.2.1
@[simp] theorem realignYawGps_tNotInh (x : In) (s : St) : (realignYawGps x s).1.tNotInh = s.tNotInh := (realignYawGps_frame x s).2.2.2.2.2.2.2.2.2.2.2.2.2.2.2.2.2.2.2.1
@[simp] theorem realignYawGps_tYaw (x : In) (s : St) : (realignYawGps x s).1.tYaw = s.tYaw := (realignYawGps_frame x s).2.2.2.2.2.2.2.2.2.2.2.2.2.2.2.2.2.2.2.2.1
@[simp] theorem realignYawGps_gpsYawFaulty (x : In) (s : St) : (realignYawGps x s).1.gpsYawFaulty = s.gpsYawFaulty := (realignYawGps_frame x s).2.2.2.2.2.2.2.2.2.2.2.2.2.2.2.2.2.2.2.2.2.1
@[simp] theorem realignYawGps_doGsf (x : In) (s : St) : (realignYawGps x s).1.doGsf = s.doGsf := (realignYawGps_frame x s).2.2.2.2.2.2.2.2.2.2.2.2.2.2.2.2.2.2.2.2.2.2.1
@[simp] theorem realignYawGps_gsfTime (x : In) (s : St) : (realignYawGps x s).1.gsfTime = s.gsfTime := (realignYawGps_frame x s).2.2.2.2.2.2.2.2.2.2.2.2.2.2.2.2.2.2.2.2.2.2.2.1
@[simp] theorem realignYawGps_gsfCount (x : In) (s : St) : (realignYawGps x s).1.gsfCount = s.gsfCount := (realignYawGps_frame x s).2.2.2.2.2.2.2.2.2.2.2.2.2.2.2.2.2.2.2.2.2.2.2.2.1
@[simp] theorem realignYawGps_tPos (x : In) (s : St) : (realignYawGps x s).1.tPos = s.tPos := (realignYawGps_frame x s).2.2.2.2.2.2.2.2.2.2.2.2.2.2.2.2.2.2.2.2.2.2.2.2.2.1
@[simp] theorem realignYawGps_tDelpos (x : In) (s : St) : (realignYawGps x s).1.tDelpos = s.tDelpos := (realignYawGps_frame x s).2.2.2.2.2.2.2.2.2.2.2.2.2.2.2.2.2.2.2.2.2.2.2.2.2.2.1
@[simp] theorem realignYawGps_tVel (x : In) (s : St) : (realignYawGps x s).1.tVel = s.tVel := (realignYawGps_frame x s).2.2.2.2.2.2.2.2.2.2.2.2.2.2.2.2.2.2.2.2.2.2.2.2.2.2.2.1
@[simp] theorem realignYawGps_tOf (x : In) (s : St) : (realignYawGps x s).1.tOf = s.tOf := (realignYawGps_frame x s).2.2.2.2.2.2.2.2.2.2.2.2.2.2.2.2.2.2.2.2.2.2.2.2.2.2.2.2.1
@[simp] theorem realignYawGps_tBeta (x : In) (s : St) : (realignYawGps x s).1.tBeta = s.tBeta := (realignYawGps_frame x s).2.2.2.2.2.2.2.2.2.2.2.2.2.2.2.2.2.2.2.2.2.2.2.2.2.2.2.2.2.1
@[simp] theorem realignYawGps_tArsp (x : In) (s : St) : (realignYawGps x s).1.tArsp = s.tArsp := (realignYawGps_frame x s).2.2.2.2.2.2.2.2.2.2.2.2.2.2.2.2.2.2.2.2.2.2.2.2.2.2.2.2.2.2.1
@[simp] theorem realignYawGps_tFake (x : In) (s : St) : (realignYawGps x s).1.tFake = s.tFake := (realignYawGps_frame x s).2.2.2.2.2.2.2.2.2.2.2.2.2.2.2.2.2.2.2.2.2.2.2.2.2.2.2.2.2.2.2.1
@[simp] theorem realignYawGps_tGpsYaw (x : In) (s : St) : (realignYawGps x s).1.tGpsYaw = s.tGpsYaw := (realignYawGps_frame x s).2.2.2.2.2.2.2.2.2.2.2.2.2.2.2.2.2.2.2.2.2.2.2.2.2.2.2.2.2.2.2.2.1
@[simp] theorem realignYawGps_hposPrev (x : In) (s : St) : (realignYawGps x s).1.hposPrev = s.hposPrev := (realignYawGps_frame x s).2.2.2.2.2.2.2.2.2.2.2.2.2.2.2.2.2.2.2.2.2.2.2.2.2.2.2.2.2.2.2.2.2.1
@[simp] theorem realignYawGps_hposOdom (x : In) (s : St) : (realignYawGps x s).1.hposOdom = s.hposOdom := (realignYawGps_frame x s).2.2.2.2.2.2.2.2.2.2.2.2.2.2.2.2.2.2.2.2.2.2.2.2.2.2.2.2.2.2.2.2.2.2.1
@[simp] theorem realignYawGps_synth (x : In) (s : St) : (realignYawGps x s).1.synth = s.synth := (realignYawGps_frame x s).2.2.2.2.2.2.2.2.2.2.2.2.2.2.2.2.2.2.2.2.2.2.2.2.2.2.2.2.2.2.2.2.2.2.2.1
@[simp] theorem realignYawGps_flowReady (x : In) (s : St) : (realignYawGps x s).1.flowReady = s.flowReady := (realignYawGps_frame x s).2.2.2.2.2.2.2.2.2.2.2.2.2.2.2.2.2.2.2.2.2.2.2.2.2.2.2.2.2.2.2.2.2.2.2.2.1
@[simp] theorem realignYawGps_flowInh (x : In) (s : St) : (realignYawGps x s).1.flowInh = s.flowInh := (realignYawGps_frame x s).2.2.2.2.2.2.2.2.2.2.2.2.2.2.2.2.2.2.2.2.2.2.2.2.2.2.2.2.2.2.2.2.2.2.2.2.2.1
@[simp] theorem realignYawGps_tGood (x : In) (s : St) : (realignYawGps x s).1.tGood = s.tGood := (realignYawGps_frame x s).2.2.2.2.2.2.2.2.2.2.2.2.2.2.2.2.2.2.2.2.2.2.2.2.2.2.2.2.2.2.2.2.2.2.2.2.2.2.1
@[simp] theorem realignYawGps_tBad (x : In) (s : St) : (realignYawGps x s).1.tBad = s.tBad := (realignYawGps_frame x s).2.2.2.2.2.2.2.2.2.2.2.2.2.2.2.2.2.2.2.2.2.2.2.2.2.2.2.2.2.2.2.2.2.2.2.2.2.2.2

theorem resetYawToGsf_frame (x : In) (s : St) :
    (resetYawToGsf x s).1.tilt = s.tilt ∧ (resetYawToGsf x s).1.gps = s.gps ∧ (resetYawToGsf x s).1.optFlow = s.optFlow ∧ (resetYawToGsf x s).1.magHdg = s.magHdg ∧ (resetYawToGsf x s).1.mag3D = s.mag3D ∧ (resetYawToGsf x s).1.magDec = s.magDec ∧ (resetYawToGsf x s).1.wind = s.wind ∧ (resetYawToGsf x s).1.evPos = s.evPos ∧ (resetYawToGsf x s).1.evVel = s.evVel ∧ (resetYawToGsf x s).1.evYaw = s.evYaw ∧ (resetYawToGsf x s).1.gpsYaw = s.gpsYaw ∧ (resetYawToGsf x s).1.magDist = s.magDist ∧ (resetYawToGsf x s).1.fuseAspd = s.fuseAspd ∧ (resetYawToGsf x s).1.magAligned = s.magAligned ∧ (resetYawToGsf x s).1.magYawReq = s.magYawReq ∧ (resetYawToGsf x s).1.magInhReq = s.magInhReq ∧ (resetYawToGsf x s).1.velposReq = s.velposReq ∧ (resetYawToGsf x s).1.inhibited = s.inhibited ∧ (resetYawToGsf x s).1.nonMagPrev = s.nonMagPrev ∧ (resetYawToGsf x s).1.yawObs = s.yawObs ∧ (resetYawToGsf x s).1.biasObs = s.biasObs ∧ (resetYawToGsf x s).1.nBad = s.nBad ∧ (resetYawToGsf x s).1.declCovReset = s.declCovReset ∧ (resetYawToGsf x s).1.tMov = s.tMov ∧ (resetYawToGsf x s).1.tNotInh = s.tNotInh ∧ (resetYawToGsf x s).1.tYaw = s.tYaw ∧ (resetYawToGsf x s).1.gpsYawFaulty = s.gpsYawFaulty ∧ (resetYawToGsf x s).1.doGsf = s.doGsf ∧ (resetYawToGsf x s).1.gsfTime = s.gsfTime ∧ (resetYawToGsf x s).1.gsfCount = s.gsfCount ∧ (resetYawToGsf x s).1.tPos = s.tPos ∧ (resetYawToGsf x s).1.tDelpos = s.tDelpos ∧ (resetYawToGsf x s).1.tVel = s.tVel ∧ (resetYawToGsf x s).1.tOf = s.tOf ∧ (resetYawToGsf x s).1.tBeta = s.tBeta ∧ (resetYawToGsf x s).1.tArsp = s.tArsp ∧ (resetYawToGsf x s).1.tFake = s.tFake ∧ (resetYawToGsf x s).1.tGpsYaw = s.tGpsYaw ∧ (resetYawToGsf x s).1.hposOdom = s.hposOdom ∧ (resetYawToGsf x s).1.synth = s.synth ∧ (resetYawToGsf x s).1.flowReady = s.flowReady ∧ (resetYawToGsf x s).1.flowInh = s.flowInh ∧ (resetYawToGsf x s).1.tGood = s.tGood ∧ (resetYawToGsf x s).1.tBad = s.tBad := by
  unfold resetYawToGsf; (try dsimp only); split_ifs <;> simp [*]
@[simp] theorem resetYawToGsf_tilt (x : In) (s : St) : (resetYawToGsf x s).1.tilt = s.tilt := (resetYawToGsf_frame x s).1
@[simp] theorem resetYawToGsf_gps (x : In) (s : St) : (resetYawToGsf x s).1.gps = s.gps := (resetYawToGsf_frame x s).2.1
@[simp] theorem resetYawToGsf_optFlow (x : In) (s : St) : (resetYawToGsf x s).1.optFlow = s.optFlow := (resetYawToGsf_frame x s).2.2.1
@[simp] theorem resetYawToGsf_magHdg (x : In) (s : St) : (resetYawToGsf x s).1.magHdg = s.magHdg := (resetYawToGsf_frame x s).2.2.2.1
@[simp] theorem resetYawToGsf_mag3D (x : In) (s : St) : (resetYawToGsf x s).1.mag3D = s.mag3D := (resetYawToGsf_frame x s).2.2.2.2.1
@[simp] theorem resetYawToGsf_magDec (x : In) (s : St) : (resetYawToGsf x s).1.magDec = s.magDec := (resetYawToGsf_frame x s).2.2.2.2.2.1
@[simp] theorem resetYawToGsf_wind (x : In) (s : St) : (resetYawToGsf x s).1.wind = s.wind := (resetYawToGsf_frame x s).2.2.2.2.2.2.1
@[simp] theorem resetYawToGsf_evPos (x : In) (s : St) : (resetYawToGsf x s).1.evPos = s.evPos := (resetYawToGsf_frame x s).2.2.2.2.2.2.2.1
@[simp] theorem resetYawToGsf_evVel (x : In) (s : St) : (resetYawToGsf x s).1.evVel = s.evVel := (resetYawToGsf_frame x s).2.2.2.2.2.2.2.2.1
@[simp] theorem resetYawToGsf_evYaw (x : In) (s : St) : (resetYawToGsf x s).1.evYaw = s.evYaw := (resetYawToGsf_frame x s).2.2.2.2.2.2.2.2.2.1
@[simp] theorem resetYawToGsf_gpsYaw (x : In) (s : St) : (resetYawToGsf x s).1.gpsYaw = s.gpsYaw := (resetYawToGsf_frame x s).2.2.2.2.2.2.2.2.2.2.1
@[simp] theorem resetYawToGsf_magDist (x : In) (s : St) : (resetYawToGsf x s).1.magDist = s.magDist := (resetYawToGsf_frame x s).2.2.2.2.2.2.2.2.2.2.2.1
@[simp] theorem resetYawToGsf_fuseAspd (x : In) (s : St) : (resetYawToGsf x s).1.fuseAspd = s.fuseAspd := (resetYawToGsf_frame x s).2.2.2.2.2.2.2.2.2.2.2.2.1
@[simp] theorem resetYawToGsf_magAligned (x : In) (s : St) : (resetYawToGsf x s).1.magAligned = s.magAligned := (resetYawToGsf_frame x s).2.2.2.2.2.2.2.2.2.2.2.2.2.1
@[simp] theorem resetYawToGsf_magYawReq (x : In) (s : St) : (resetYawToGsf x s).1.magYawReq = s.magYawReq := (resetYawToGsf_frame x s).2.2.2.2.2.2.2.2.2.2.2.2.2.2.1
@[simp] theorem resetYawToGsf_magInhReq (x : In) (s : St) : (resetYawToGsf x s).1.magInhReq = s.magInhReq := (resetYawToGsf_frame x s).2.2.2.2.2.2.2.2.2.2.2.2.2.2.2.1
@[simp] theorem resetYawToGsf_velposReq (x : In) (s : St) : (resetYawToGsf x s).1.velposReq = s.velposReq := (resetYawToGsf_frame x s).2.2.2.2.2.2.2.2.2.2.2.2.2.2.2.2.1
@[simp] theorem resetYawToGsf_inhibited (x : In) (s : St) : (resetYawToGsf x s).1.inhibited = s.inhibited := (resetYawToGsf_frame x s).2.2.2.2.2.2.2.2.2.2.2.2.2.2.2.2.2.1
@[simp] theorem resetYawToGsf_nonMagPrev (x : In) (s : St) : (resetYawToGsf x s).1.nonMagPrev = s.nonMagPrev := (resetYawToGsf_frame x s).2.2.2.2.2.2.2.2.2.2.2.2.2.2.2.2.2.2.1
@[simp] theorem resetYawToGsf_yawObs (x : In) (s : St) : (resetYawToGsf x s).1.yawObs = s.yawObs := (resetYawToGsf_frame x s).2.2.2.2.2.2.2.2.2.2.2.2.2.2.2.2.2.2.2.1
@[simp] theorem resetYawToGsf_biasObs (x : In) (s : St) : (resetYawToGsf x s).1.biasObs = s.biasObs := (resetYawToGsf_frame x s).2.2.2.2.2.2.2.2.2.2.2.2.2.2.2.2.2.2.2.2.1
@[simp] theorem resetYawToGsf_nBad (x : In) (s : St) : (resetYawToGsf x s).1.nBad = s.nBad := (resetYawToGsf_frame x s).2.2.2.2.2.2.2.2.2.2.2.2.2.2.2.2.2.2.2.2.2.1
@[simp] theorem resetYawToGsf_declCovReset (x : In) (s : St) : (resetYawToGsf x s).1.declCovReset = s.declCovReset := (resetYawToGsf_frame x s).2.2.2.2.2.2.2.2.2.2.2.2.2.2.2.2.2.2.2.2.2.2.1
@[simp] theorem resetYawToGsf_tMov (x : In) (s : St) : (resetYawToGsf x s).1.tMov = s.tMov := (resetYawToGsf_frame x s).2.2.2.2.2.2.2.2.2.2.2.2.2.2.2.2.2.2.2.2.2.2.2.1
@[simp] theorem resetYawToGsf_tNotInh (x : In) (s : St) : (resetYawToGsf x s).1.tNotInh = s.tNotInh := (resetYawToGsf_frame x s).2.2.2.2.2.2.2.2.2.2.2.2.2.2.2.2.2.2.2.2.2.2.2.2.1
@[simp] theorem resetYawToGsf_tYaw (x : In) (s : St) : (resetYawToGsf x s).1.tYaw = s.tYaw := (resetYawToGsf_frame x s).2.2.2.2.2.2.2.2.2.2.2.2.2.2.2.2.2.2.2.2.2.2.2.2.2.1
@[simp] theorem resetYawToGsf_gpsYawFaulty (x : In) (s : St) : (resetYawToGsf x s).1.gpsYawFaulty = s.gpsYawFaulty := (resetYawToGsf_frame x s).2.2.2.2.2.2.2.2.2.2.2.2.2.2.2.2.2.2.2.2.2.2.2.2.2.2.1
@[simp] theorem resetYawToGsf_doGsf (x : In) (s : St) : (resetYawToGsf x s).1.doGsf = s.doGsf := (resetYawToGsf_frame x s).2.2.2.2.2.2.2.2.2.2.2.2.2.2.2.2.2.2.2.2.2.2.2.2.2.2.2.1
@[simp] theorem resetYawToGsf_gsfTime (x : In) (s : St) : (resetYawToGsf x s).1.gsfTime = s.gsfTime := (resetYawToGsf_frame x s).2.2.2.2.2.2.2.2.2.2.2.2.2.2.2.2.2.2.2.2.2.2.2.2.2.2.2.2.1
@[simp] theorem resetYawToGsf_gsfCount (x : In) (s : St) : (resetYawToGsf x s).1.gsfCount = s.gsfCount := (resetYawToGsf_frame x s).2.2.2.2.2.2.2.2.2.2.2.2.2.2.2.2.2.2.2.2.2.2.2.2.2.2.2.2.2.1
@[simp] theorem resetYawToGsf_tPos (x : In) (s : St) : (resetYawToGsf x s).1.tPos = s.tPos := (resetYawToGsf_frame x s).2.2.2.2.2.2.2.2.2.2.2.2.2.2.2.2.2.2.2.2.2.2.2.2.2.2.2.2.2.2.1
@[simp] theorem resetYawToGsf_tDelpos (x : In) (s : St) : (resetYawToGsf x s).1.tDelpos = s.tDelpos := (resetYawToGsf_frame x s).2.2.2.2.2.2.2.2.2.2.2.2.2.2.2.2.2.2.2.2.2.2.2.2.2.2.2.2.2.2.2.1
@[simp] theorem resetYawToGsf_tVel (x : In) (s : St) : (resetYawToGsf x s).1.tVel = s.tVel := (resetYawToGsf_frame x s).2.2.2.2.2.2.2.2.2.2.2.2.2.2.2.2.2.2.2.2.2.2.2.2.2.2.2.2.2.2.2.2.1
@[simp] theorem resetYawToGsf_tOf (x : In) (s : St) : (resetYawToGsf x s).1.tOf = s.tOf := (resetYawToGsf_frame x s).2.2.2.2.2.2.2.2.2.2.2.2.2.2.2.2.2.2.2.2.2.2.2.2.2.2.2.2.2.2.2.2.2.1
@[simp] theorem resetYawToGsf_tBeta (x : In) (s : St) : (resetYawToGsf x s).1.tBeta = s.tBeta := (resetYawToGsf_frame x s).2.2.2.2.2.2.2.2.2.2.2.2.2.2.2.2.2.2.2.2.2.2.2.2.2.2.2.2.2.2.2.2.2.2.1
@[simp] theorem resetYawToGsf_tArsp (x : In) (s : St) : (resetYawToGsf x s).1.tArsp = s.tArsp := (resetYawToGsf_frame x s).2.2.2.2.2.2.2.2.2.2.2.2.2.2.2.2.2.2.2.2.2.2.2.2.2.2.2.2.2.2.2.2.2.2.2.1
@[simp] theorem resetYawToGsf_tFake (x : In) (s : St) : (resetYawToGsf x s).1.tFake = s.tFake := (resetYawToGsf_frame x s).2.2.2.2.2.2.2.2.2.2.2.2.2.2.2.2.2.2.2.2.2.2.2.2.2.2.2.2.2.2.2.2.2.2.2.2.1
@[simp] theorem resetYawToGsf_tGpsYaw (x : In) (s : St) : (resetYawToGsf x s).1.tGpsYaw = s.tGpsYaw := (resetYawToGsf_frame x s).2.2.2.2.2.2.2.2.2.2.2.2.2.2.2.2.2.2.2.2.2.2.2.2.2.2.2.2.2.2.2.2.2.2.2.2.2.1
@[simp] theorem resetYawToGsf_hposOdom (x : In) (s : St) : (resetYawToGsf x s).1.hposOdom = s.hposOdom := (resetYawToGsf_frame x s).2.2.2.2.2.2.2.2.2.2.2.2.2.2.2.2.2.2.2.2.2.2.2.2.2.2.2.2.2.2.2.2.2.2.2.2.2.2.1
@[simp] theorem resetYawToGsf_synth (x : In) (s : St) : (resetYawToGsf x s).1.synth = s.synth := (resetYawToGsf_frame x s).2.2.2.2.2.2.2.2.2.2.2.2.2.2.2.2.2.2.2.2.2.2.2.2.2.2.2.2.2.2.2.2.2.2.2.2.2.2.2.1
@[simp] theorem resetYawToGsf_flowReady (x : In) (s : St) : (resetYawToGsf x s).1.flowReady = s.flowReady := (resetYawToGsf_frame x s).2.2.2.2.2.2.2.2.2.2.2.2.2.2.2.2.2.2.2.2.2.2.2.2.2.2.2.2.2.2.2.2.2.2.2.2.2.2.2.2.1
@[simp] theorem resetYawToGsf_flowInh (x : In) (s : St) : (resetYawToGsf x s).1.flowInh = s.flowInh := (resetYawToGsf_frame x s).2.2.2.2.2.2.2.2.2.2.2.2.2.2.2.2.2.2.2.2.2.2.2.2.2.2.2.2.2.2.2.2.2.2.2.2.2.2.2.2.2.1
@[simp] theorem resetYawToGsf_tGood (x : In) (s : St) : (resetYawToGsf x s).1.tGood = s.tGood := (resetYawToGsf_frame x s).2.2.2.2.2.2.2.2.2.2.2.2.2.2.2.2.2.2.2.2.2.2.2.2.2.2.2.2.2.2.2.2.2.2.2.2.2.2.2.2.2.2.1
@[simp] theorem resetYawToGsf_tBad (x : In) (s : St) : (resetYawToGsf x s).1.tBad = s.tBad := (resetYawToGsf_frame x s).2.2.2.2.2.2.2.2.2.2.2.2.2.2.2.2.2.2.2.2.2.2.2.2.2.2.2.2.2.2.2.2.2.2.2.2.2.2.2.2.2.2.2

theorem fuseVelHor_frame (x : In) (ok : Bool) (s : St) :
    (fuseVelHor x ok s).tilt = s.tilt ∧ (fuseVelHor x ok s).yawAlign = s.yawAlign ∧ (fuseVelHor x ok s).gps = s.gps ∧ (fuseVelHor x ok s).optFlow = s.optFlow ∧ (fuseVelHor x ok s).magHdg = s.magHdg ∧ (fuseVelHor x ok s).mag3D = s.mag3D ∧ (fuseVelHor x ok s).magDec = s.magDec ∧ (fuseVelHor x ok s).wind = s.wind ∧ (fuseVelHor x ok s).evPos = s.evPos ∧ (fuseVelHor x ok s).evVel = s.evVel ∧ (fuseVelHor x ok s).evYaw = s.evYaw ∧ (fuseVelHor x ok s).gpsYaw = s.gpsYaw ∧ (fuseVelHor x ok s).magDist = s.magDist ∧ (fuseVelHor x ok s).magFault = s.magFault ∧ (fuseVelHor x ok s).fuseAspd = s.fuseAspd ∧ (fuseVelHor x ok s).magAligned = s.magAligned ∧ (fuseVelHor x ok s).magYawReq = s.magYawReq ∧ (fuseVelHor x ok s).magInhReq = s.magInhReq ∧ (fuseVelHor x ok s).velposReq = s.velposReq ∧ (fuseVelHor x ok s).inhibited = s.inhibited ∧ (fuseVelHor x ok s).nonMagPrev = s.nonMagPrev ∧ (fuseVelHor x ok s).yawObs = s.yawObs ∧ (fuseVelHor x ok s).biasObs = s.biasObs ∧ (fuseVelHor x ok s).nBad = s.nBad ∧ (fuseVelHor x ok s).declCovReset = s.declCovReset ∧ (fuseVelHor x ok s).tAlign = s.tAlign ∧ (fuseVelHor x ok s).tMov = s.tMov ∧ (fuseVelHor x ok s).tNotInh = s.tNotInh ∧ (fuseVelHor x ok s).tYaw = s.tYaw ∧ (fuseVelHor x ok s).gpsYawFaulty = s.gpsYawFaulty ∧ (fuseVelHor x ok s).doGsf = s.doGsf ∧ (fuseVelHor x ok s).gsfTime = s.gsfTime ∧ (fuseVelHor x ok s).gsfCount = s.gsfCount ∧ (fuseVelHor x ok s).tPos = s.tPos ∧ (fuseVelHor x ok s).tDelpos = s.tDelpos ∧ (fuseVelHor x ok s).tOf = s.tOf ∧ (fuseVelHor x ok s).tBeta = s.tBeta ∧ (fuseVelHor x ok s).tArsp = s.tArsp ∧ (fuseVelHor x ok s).tFake = s.tFake ∧ (fuseVelHor x ok s).tGpsYaw = s.tGpsYaw ∧ (fuseVelHor x ok s).hposPrev = s.hposPrev ∧ (fuseVelHor x ok s).hposOdom = s.hposOdom ∧ (fuseVelHor x ok s).synth = s.synth ∧ (fuseVelHor x ok s).flowReady = s.flowReady ∧ (fuseVelHor x ok s).flowInh = s.flowInh ∧ (fuseVelHor x ok s).tGood = s.tGood ∧ (fuseVelHor x ok s).tBad = s.tBad := by
  unfold fuseVelHor; (try dsimp only); split_ifs <;> simp [*]
@[simp] theorem fuseVelHor_tilt (x : In) (ok : Bool) (s : St) : (fuseVelHor x ok s).tilt = s.tilt := (fuseVelHor_frame x ok s).1
@[simp] theorem fuseVelHor_yawAlign (x : In) (ok : Bool) (s : St) : (fuseVelHor x ok s).yawAlign = s.yawAlign := (fuseVelHor_frame x ok s).2.1
@[simp] theorem fuseVelHor_gps (x : In) (ok : Bool) (s : St) : (fuseVelHor x ok s).gps = s.gps := (fuseVelHor_frame x ok s).2.2.1
@[simp] theorem fuseVelHor_optFlow (x : In) (ok : Bool) (s : St) : (fuseVelHor x ok s).optFlow = s.optFlow := (fuseVelHor_frame x ok s).2.2.2.1
@[simp] theorem fuseVelHor_magHdg (x : In) (ok : Bool) (s : St) : (fuseVelHor x ok s).magHdg = s.magHdg := (fuseVelHor_frame x ok s).2.2.2.2.1
@[simp] theorem fuseVelHor_mag3D (x : In) (ok : Bool) (s : St) : (fuseVelHor x ok s).mag3D = s.mag3D := (fuseVelHor_frame x ok s).2.2.2.2.2.1
@[simp] theorem fuseVelHor_magDec (x : In) (ok : Bool) (s : St) : (fuseVelHor x ok s).magDec = s.magDec := (fuseVelHor_frame x ok s).2.2.2.2.2.2.1
@[simp] theorem fuseVelHor_wind (x : In) (ok : Bool) (s : St) : (fuseVelHor x ok s).wind = s.wind := (fuseVelHor_frame x ok s).2.2.2.2.2.2.2.1
@[simp] theorem fuseVelHor_evPos (x : In) (ok : Bool) (s : St) : (fuseVelHor x ok s).evPos = s.evPos := (fuseVelHor_frame x ok s).2.2.2.2.2.2.2.2.1
@[simp] theorem fuseVelHor_evVel (x : In) (ok : Bool) (s : St) : (fuseVelHor x ok s).evVel = s.evVel := (fuseVelHor_frame x ok s).2.2.2.2.2.2.2.2.2.1
@[simp] theorem fuseVelHor_evYaw (x : In) (ok : Bool) (s : St) : (fuseVelHor x ok s).evYaw = s.evYaw := (fuseVelHor_frame x ok s).2.2.2.2.2.2.2.2.2.2.1
@[simp] theorem fuseVelHor_gpsYaw (x : In) (ok : Bool) (s : St) : (fuseVelHor x ok s).gpsYaw = s.gpsYaw := (fuseVelHor_frame x ok s).2.2.2.2.2.2.2.2.2.2.2.1
@[simp] theorem fuseVelHor_magDist (x : In) (ok : Bool) (s : St) : (fuseVelHor x ok s).magDist = s.magDist := (fuseVelHor_frame x ok s).2.2.2.2.2.2.2.2.2.2.2.2.1
@[simp] theorem fuseVelHor_magFault (x : In) (ok : Bool) (s : St) : (fuseVelHor x ok s).magFault = s.magFault := (fuseVelHor_frame x ok s).2.2.2.2.2.2.2.2.2.2.2.2.2.1
@[simp] theorem fuseVelHor_fuseAspd (x : In) (ok : Bool) (s : St) : (fuseVelHor x ok s).fuseAspd = s.fuseAspd := (fuseVelHor_frame x ok s).2.2.2.2.2.2.2.2.2.2.2.2.2.2.1
@[simp] theorem fuseVelHor_magAligned (x : In) (ok : Bool) (s : St) : (fuseVelHor x ok s).magAligned = s.magAligned := (fuseVelHor_frame x ok s).2.2.2.2.2.2.2.2.2.2.2.2.2.2.2.1
@[simp] theorem fuseVelHor_magYawReq (x : In) (ok : Bool) (s : St) : (fuseVelHor x ok s).magYawReq = s.magYawReq := (fuseVelHor_frame x ok s).2.2.2.2.2.2.2.2.2.2.2.2.2.2.2.2.1
@[simp] theorem fuseVelHor_magInhReq (x : In) (ok : Bool) (s : St) : (fuseVelHor x ok s).magInhReq = s.magInhReq := (fuseVelHor_frame x ok s).2.2.2.2.2.2.2.2.2.2.2.2.2.2.2.2.2.1
@[simp] theorem fuseVelHor_velposReq (x : In) (ok : Bool) (s : St) : (fuseVelHor x ok s).velposReq = s.velposReq := (fuseVelHor_frame x ok s).2.2.2.2.2.2.2.2.2.2.2.2.2.2.2.2.2.2.1
@[simp] theorem fuseVelHor_inhibited (x : In) (ok : Bool) (s : St) : (fuseVelHor x ok s).inhibited = s.inhibited := (fuseVelHor_frame x ok s).2.2.2.2.2.2.2.2.2.2.2.2.2.2.2.2.2.2.2.1
@[simp] theorem fuseVelHor_nonMagPrev (x : In) (ok : Bool) (s : St) : (fuseVelHor x ok s).nonMagPrev = s.nonMagPrev := (fuseVelHor_frame x ok s).2.2.2.2.2.2.2.2.2.2.2.2.2.2.2.2.2.2.2.2.1
@[simp] theorem fuseVelHor_yawObs (x : In) (ok : Bool) (s : St) : (fuseVelHor x ok s).yawObs = s.yawObs := (fuseVelHor_frame x ok s).2.2.2.2.2.2.2.2.2.2.2.2.2.2.2.2.2.2.2.2.2.1
@[simp] theorem fuseVelHor_biasObs (x : In) (ok : Bool) (s : St) : (fuseVelHor x ok s).biasObs = s.biasObs := (fuseVelHor_frame x ok s).2.2.2.2.2.2.2.2.2.2.2.2.2.2.2.2.2.2.2.2.2.2.1
@[simp] theorem fuseVelHor_nBad (x : In) (ok : Bool) (s : St) : (fuseVelHor x ok s).nBad = s.nBad := (fuseVelHor_frame x ok s).2.2.2.2.2.2.2.2.2.2.2.2.2.2.2.2.2.2.2.2.2.2.2.1
@[simp] theorem fuseVelHor_declCovReset (x : In) (ok : Bool) (s : St) : (fuseVelHor x ok s).declCovReset = s.declCovReset := (fuseVelHor_frame x ok s).2.2.2.2.2.2.2.2.2.2.2.2.2.2.2.2.2.2.2.2.2.2.2.2.1
@[simp] theorem fuseVelHor_tAlign (x : In) (ok : Bool) (s : St) : (fuseVelHor x ok s).tAlign = s.tAlign := (fuseVelHor_frame x ok s).2.2.2.2.2.2.2.2.2.2.2.2.2.2.2.2.2.2.2.2.2.2.2.2.2.1
@[simp] theorem fuseVelHor_tMov (x : In) (ok : Bool) (s : St) : (fuseVelHor x ok s).tMov = s.tMov := (fuseVelHor_frame x ok s).2.2.2.2.2.2.2.2.2.2.2.2.2.2.2.2.2.2.2.2.2.2.2.2.2.2.1
@[simp] theorem fuseVelHor_tNotInh (x : In) (ok : Bool) (s : St) : (fuseVelHor x ok s).tNotInh = s.tNotInh := (fuseVelHor_frame x ok s).2.2.2.2.2.2.2.2.2.2.2.2.2.2.2.2.2.2.2.2.2.2.2.2.2.2.2.1
@[simp] theorem fuseVelHor_tYaw (x : In) (ok : Bool) (s : St) : (fuseVelHor x ok s).tYaw = s.tYaw := (fuseVelHor_frame x ok s).2.2.2.2.2.2.2.2.2.2.2.2.2.2.2.2.2.2.2.2.2.2.2.2.2.2.2.2.1
@[simp] theorem fuseVelHor_gpsYawFaulty (x : In) (ok : Bool) (s : St) : (fuseVelHor x ok s).gpsYawFaulty = s.gpsYawFaulty := (fuseVelHor_frame x ok s).2.2.2.2.2.2.2.2.2.2.2.2.2.2.2.2.2.2.2.2.2.2.2.2.2.2.2.2.2.1
@[simp] theorem fuseVelHor_doGsf (x : In) (ok : Bool) (s : St) : (fuseVelHor x ok s).doGsf = s.doGsf := (fuseVelHor_frame x ok s).2.2.2.2.2.2.2.2.2.2.2.2.2.2.2.2.2.2.2.2.2.2.2.2.2.2.2.2.2.2.1
@[simp] theorem fuseVelHor_gsfTime (x : In) (ok : Bool) (s : St) : (fuseVelHor x ok s).gsfTime = s.gsfTime := (fuseVelHor_frame x ok s).2.2.2.2.2.2.2.2.2.2.2.2.2.2.2.2.2.2.2.2.2.2.2.2.2.2.2.2.2.2.2.1
@[simp] theorem fuseVelHor_gsfCount (x : In) (ok : Bool) (s : St) : (fuseVelHor x ok s).gsfCount = s.gsfCount := (fuseVelHor_frame x ok s).2.2.2.2.2.2.2.2.2.2.2.2.2.2.2.2.2.2.2.2.2.2.2.2.2.2.2.2.2.2.2.2.1
@[simp] theorem fuseVelHor_tPos (x : In) (ok : Bool) (s : St) : (fuseVelHor x ok s).tPos = s.tPos := (fuseVelHor_frame x ok s).2.2.2.2.2.2.2.2.2.2.2.2.2.2.2.2.2.2.2.2.2.2.2.2.2.2.2.2.2.2.2.2.2.1
@[simp] theorem fuseVelHor_tDelpos (x : In) (ok : Bool) (s : St) : (fuseVelHor x ok s).tDelpos = s.tDelpos := (fuseVelHor_frame x ok s).2.2.2.2.2.2.2.2.2.2.2.2.2.2.2.2.2.2.2.2.2.2.2.2.2.2.2.2.2.2.2.2.2.2.1
@[simp] theorem fuseVelHor_tOf (x : In) (ok : Bool) (s : St) : (fuseVelHor x ok s).tOf = s.tOf := (fuseVelHor_frame x ok s).2.2.2.2.2.2.2.2.2.2.2.2.2.2.2.2.2.2.2.2.2.2.2.2.2.2.2.2.2.2.2.2.2.2.2.1
@[simp] theorem fuseVelHor_tBeta (x : In) (ok : Bool) (s : St) : (fuseVelHor x ok s).tBeta = s.tBeta := (fuseVelHor_frame x ok s).2.2.2.2.2.2.2.2.2.2.2.2.2.2.2.2.2.2.2.2.2.2.2.2.2.2.2.2.2.2.2.2.2.2.2.2.1
@[simp] theorem fuseVelHor_tArsp (x : In) (ok : Bool) (s : St) : (fuseVelHor x ok s).tArsp = s.tArsp := (fuseVelHor_frame x ok s).2.2.2.2.2.2.2.2.2.2.2.2.2.2.2.2.2.2.2.2.2.2.2.2.2.2.2.2.2.2.2.2.2.2.2.2.2.1
@[simp] theorem fuseVelHor_tFake (x : In) (ok : Bool) (s : St) : (fuseVelHor x ok s).tFake = s.tFake := (fuseVelHor_frame x ok s).2.2.2.2.2.2.2.2.2.2.2.2.2.2.2.2.2.2.2.2.2.2.2.2.2.2.2.2.2.2.2.2.2.2.2.2.2.2.1
@[simp] theorem fuseVelHor_tGpsYaw (x : In) (ok : Bool) (s : St) : (fuseVelHor x ok s).tGpsYaw = s.tGpsYaw := (fuseVelHor_frame x ok s).2.2.2.2.2.2.2.2.2.2.2.2.2.2.2.2.2.2.2.2.2.2.2.2.2.2.2.2.2.2.2.2.2.2.2.2.2.2.2.1
@[simp] theorem fuseVelHor_hposPrev (x : In) (ok : Bool) (s : St) : (fuseVelHor x ok s).hposPrev = s.hposPrev := (fuseVelHor_frame x ok s).2.2.2.2.2.2.2.2.2.2.2.2.2.2.2.2.2.2.2.2.2.2.2.2.2.2.2.2.2.2.2.2.2.2.2.2.2.2.2.2.1
@[simp] theorem fuseVelHor_hposOdom (x : In) (ok : Bool) (s : St) : (fuseVelHor x ok s).hposOdom = s.hposOdom := (fuseVelHor_frame x ok s).2.2.2.2.2.2.2.2.2.2.2.2.2.2.2.2.2.2.2.2.2.2.2.2.2.2.2.2.2.2.2.2.2.2.2.2.2.2.2.2.2.1
@[simp] theorem fuseVelHor_synth (x : In) (ok : Bool) (s : St) : (fuseVelHor x ok s).synth = s.synth := (fuseVelHor_frame x ok s).2.2.2.2.2.2.2.2.2.2.2.2.2.2.2.2.2.2.2.2.2.2.2.2.2.2.2.2.2.2.2.2.2.2.2.2.2.2.2.2.2.2.1
@[simp] theorem fuseVelHor_flowReady (x : In) (ok : Bool) (s : St) : (fuseVelHor x ok s).flowReady = s.flowReady := (fuseVelHor_frame x ok s).2.2.2.2.2.2.2.2.2.2.2.2.2.2.2.2.2.2.2.2.2.2.2.2.2.2.2.2.2.2.2.2.2.2.2.2.2.2.2.2.2.2.2.1
@[simp] theorem fuseVelHor_flowInh (x : In) (ok : Bool) (s : St) : (fuseVelHor x ok s).flowInh = s.flowInh := (fuseVelHor_frame x ok s).2.2.2.2.2.2.2.2.2.2.2.2.2.2.2.2.2.2.2.2.2.2.2.2.2.2.2.2.2.2.2.2.2.2.2.2.2.2.2.2.2.2.2.2.1
@[simp] theorem fuseVelHor_tGood (x : In) (ok : Bool) (s : St) : (fuseVelHor x ok s).tGood = s.tGood := (fuseVelHor_frame x ok s).2.2.2.2.2.2.2.2.2.2.2.2.2.2.2.2.2.2.2.2.2.2.2.2.2.2.2.2.2.2.2.2.2.2.2.2.2.2.2.2.2.2.2.2.2.1
@[simp] theorem fuseVelHor_tBad (x : In) (ok : Bool) (s : St) : (fuseVelHor x ok s).tBad = s.tBad := (fuseVelHor_frame x ok s).2.2.2.2.2.2.2.2.2.2.2.2.2.2.2.2.2.2.2.2.2.2.2.2.2.2.2.2.2.2.2.2.2.2.2.2.2.2.2.2.2.2.2.2.2.2

theorem fusePos_frame (x : In) (v : PosVar) (ok : Bool) (s : St) :
    (fusePos x v ok s).tilt = s.tilt ∧ (fusePos x v ok s).yawAlign = s.yawAlign ∧ (fusePos x v ok s).gps = s.gps ∧ (fusePos x v ok s).optFlow = s.optFlow ∧ (fusePos x v ok s).magHdg = s.magHdg ∧ (fusePos x v ok s).mag3D = s.mag3D ∧ (fusePos x v ok s).magDec = s.magDec ∧ (fusePos x v ok s).wind = s.wind ∧ (fusePos x v ok s).evPos = s.evPos ∧ (fusePos x v ok s).evVel = s.evVel ∧ (fusePos x v ok s).evYaw = s.evYaw ∧ (fusePos x v ok s).gpsYaw = s.gpsYaw ∧ (fusePos x v ok s).magDist = s.magDist ∧ (fusePos x v ok s).magFault = s.magFault ∧ (fusePos x v ok s).fuseAspd = s.fuseAspd ∧ (fusePos x v ok s).magAligned = s.magAligned ∧ (fusePos x v ok s).magYawReq = s.magYawReq ∧ (fusePos x v ok s).magInhReq = s.magInhReq ∧ (fusePos x v ok s).velposReq = s.velposReq ∧ (fusePos x v ok s).inhibited = s.inhibited ∧ (fusePos x v ok s).nonMagPrev = s.nonMagPrev ∧ (fusePos x v ok s).yawObs = s.yawObs ∧ (fusePos x v ok s).biasObs = s.biasObs ∧ (fusePos x v ok s).nBad = s.nBad ∧ (fusePos x v ok s).declCovReset = s.declCovReset ∧ (fusePos x v ok s).tAlign = s.tAlign ∧ (fusePos x v ok s).tMov = s.tMov ∧ (fusePos x v ok s).tNotInh = s.tNotInh ∧ (fusePos x v ok s).tYaw = s.tYaw ∧ (fusePos x v ok s).gpsYawFaulty = s.gpsYawFaulty ∧ (fusePos x v ok s).doGsf = s.doGsf ∧ (fusePos x v ok s).gsfTime = s.gsfTime ∧ (fusePos x v ok s).gsfCount = s.gsfCount ∧ (fusePos x v ok s).tVel = s.tVel ∧ (fusePos x v ok s).tOf = s.tOf ∧ (fusePos x v ok s).tBeta = s.tBeta ∧ (fusePos x v ok s).tArsp = s.tArsp ∧ (fusePos x v ok s).tFake = s.tFake ∧ (fusePos x v ok s).tGpsYaw = s.tGpsYaw ∧ (fusePos x v ok s).hposPrev = s.hposPrev ∧ (fusePos x v ok s).hposOdom = s.hposOdom ∧ (fusePos x v ok s).synth = s.synth ∧ (fusePos x v ok s).flowReady = s.flowReady ∧ (fusePos x v ok s).flowInh = s.flowInh ∧ (fusePos x v ok s).tGood = s.tGood ∧ (fusePos x v ok s).tBad = s.tBad := by
  unfold fusePos; (try dsimp only); split_ifs <;> simp [*]
@[simp] theorem fusePos_tilt (x : In) (v : PosVar) (ok : Bool) (s : St) : (fusePos x v ok s).tilt = s.tilt := (fusePos_frame x v ok s).1
@[simp] theorem fusePos_yawAlign (x : In) (v : PosVar) (ok : Bool) (s : St) : (fusePos x v ok s).yawAlign = s.yawAlign := (fusePos_frame x v ok s).2.1
@[simp] theorem fusePos_gps (x : In) (v : PosVar) (ok : Bool) (s : St) : (fusePos x v ok s).gps = s.gps := (fusePos_frame x v ok s).2.2.1
@[simp] theorem fusePos_optFlow (x : In) (v : PosVar) (ok : Bool) (s : St) : (fusePos x v ok s).optFlow = s.optFlow := (fusePos_frame x v ok s).2.2.2.1
@[simp] theorem fusePos_magHdg (x : In) (v : PosVar) (ok : Bool) (s : St) : (fusePos x v ok s).magHdg = s.magHdg := (fusePos_frame x v ok s).2.2.2.2.1
@[simp] theorem fusePos_mag3D (x : In) (v : PosVar) (ok : Bool) (s : St) : (fusePos x v ok s).mag3D = s.mag3D := (fusePos_frame x v ok s).2.2.2.2.2.1
@[simp] theorem fusePos_magDec (x : In) (v : PosVar) (ok : Bool) (s : St) : (fusePos x v ok s).magDec = s.magDec := (fusePos_frame x v ok s).2.2.2.2.2.2.1
@[simp] theorem fusePos_wind (x : In) (v : PosVar) (ok : Bool) (s : St) : (fusePos x v ok s).wind = s.wind := (fusePos_frame x v ok s).2.2.2.2.2.2.2.1
@[simp] theorem fusePos_evPos (x : In) (v : PosVar) (ok : Bool) (s : St) : (fusePos x v ok s).evPos = s.evPos := (fusePos_frame x v ok s).2.2.2.2.2.2.2.2.1
@[simp] theorem fusePos_evVel (x : In) (v : PosVar) (ok : Bool) (s : St) : (fusePos x v ok s).evVel = s.evVel := (fusePos_frame x v ok s).2.2.2.2.2.2.2.2.2.1
@[simp] theorem fusePos_evYaw (x : In) (v : PosVar) (ok : Bool) (s : St) : (fusePos x v ok s).evYaw = s.evYaw := (fusePos_frame x v ok s).2.2.2.2.2.2.2.2.2.2.1
@[simp] theorem fusePos_gpsYaw (x : In) (v : PosVar) (ok : Bool) (s : St) : (fusePos x v ok s).gpsYaw = s.gpsYaw := (fusePos_frame x v ok s).2.2.2.2.2.2.2.2.2.2.2.1
@[simp] theorem fusePos_magDist (x : In) (v : PosVar) (ok : Bool) (s : St) : (fusePos x v ok s).magDist = s.magDist := (fusePos_frame x v ok s).2.2.2.2.2.2.2.2.2.2.2.2.1
@[simp] theorem fusePos_magFault (x : In) (v : PosVar) (ok : Bool) (s : St) : (fusePos x v ok s).magFault = s.magFault := (fusePos_frame x v ok s).2.2.2.2.2.2.2.2.2.2.2.2.2.1
@[simp] theorem fusePos_fuseAspd (x : In) (v : PosVar) (ok : Bool) (s : St) : (fusePos x v ok s).fuseAspd = s.fuseAspd := (fusePos_frame x v ok s).2.2.2.2.2.2.2.2.2.2.2.2.2.2.1
@[simp] theorem fusePos_magAligned (x : In) (v : PosVar) (ok : Bool) (s : St) : (fusePos x v ok s).magAligned = s.magAligned := (fusePos_frame x v ok s).2.2.2.2.2.2.2.2.2.2.2.2.2.2.2.1
@[simp] theorem fusePos_magYawReq (x : In) (v : PosVar) (ok : Bool) (s : St) : (fusePos x v ok s).magYawReq = s.magYawReq := (fusePos_frame x v ok s).2.2.2.2.2.2.2.2.2.2.2.2.2.2.2.2.1
@[simp] theorem fusePos_magInhReq (x : In) (v : PosVar) (ok : Bool) (s : St) : (fusePos x v ok s).magInhReq = s.magInhReq := (fusePos_frame x v ok s).2.2.2.2.2.2.2.2.2.2.2.2.2.2.2.2.2.1
@[simp] theorem fusePos_velposReq (x : In) (v : PosVar) (ok : Bool) (s : St) : (fusePos x v ok s).velposReq = s.velposReq := (fusePos_frame x v ok s).2.2.2.2.2.2.2.2.2.2.2.2.2.2.2.2.2.2.1
@[simp] theorem fusePos_inhibited (x : In) (v : PosVar) (ok : Bool) (s : St) : (fusePos x v ok s).inhibited = s.inhibited := (fusePos_frame x v ok s).2.2.2.2.2.2.2.2.2.2.2.2.2.2.2.2.2.2.2.1
@[simp] theorem fusePos_nonMagPrev (x : In) (v : PosVar) (ok : Bool) (s : St) : (fusePos x v ok s).nonMagPrev = s.nonMagPrev := (fusePos_frame x v ok s).2.2.2.2.2.2.2.2.2.2.2.2.2.2.2.2.2.2.2.2.1
@[simp] theorem fusePos_yawObs (x : In) (v : PosVar) (ok : Bool) (s : St) : (fusePos x v ok s).yawObs = s.yawObs := (fusePos_frame x v ok s).2.2.2.2.2.2.2.2.2.2.2.2.2.2.2.2.2.2.2.2.2.1
@[simp] theorem fusePos_biasObs (x : In) (v : PosVar) (ok : Bool) (s : St) : (fusePos x v ok s).biasObs = s.biasObs := (fusePos_frame x v ok s).2.2.2.2.2.2.2.2.2.2.2.2.2.2.2.2.2.2.2.2.2.2.1
@[simp] theorem fusePos_nBad (x : In) (v : PosVar) (ok : Bool) (s : St) : (fusePos x v ok s).nBad = s.nBad := (fusePos_frame x v ok s).2.2.2.2.2.2.2.2.2.2.2.2.2.2.2.2.2.2.2.2.2.2.2.1
@[simp] theorem fusePos_declCovReset (x : In) (v : PosVar) (ok : Bool) (s : St) : (fusePos x v ok s).declCovReset = s.declCovReset := (fusePos_frame x v ok s).2.2.2.2.2.2.2.2.2.2.2.2.2.2.2.2.2.2.2.2.2.2.2.2.1
@[simp] theorem fusePos_tAlign (x : In) (v : PosVar) (ok : Bool) (s : St) : (fusePos x v ok s).tAlign = s.tAlign := (fusePos_frame x v ok s).2.2.2.2.2.2.2.2.2.2.2.2.2.2.2.2.2.2.2.2.2.2.2.2.2.1
@[simp] theorem fusePos_tMov (x : In) (v : PosVar) (ok : Bool) (s : St) : (fusePos x v ok s).tMov = s.tMov := (fusePos_frame x v ok s).2.2.2.2.2.2.2.2.2.2.2.2.2.2.2.2.2.2.2.2.2.2.2.2.2.2.1
@[simp] theorem fusePos_tNotInh (x : In) (v : PosVar) (ok : Bool) (s : St) : (fusePos x v ok s).tNotInh = s.tNotInh := (fusePos_frame x v ok s).2.2.2.2.2.2.2.2.2.2.2.2.2.2.2.2.2.2.2.2.2.2.2.2.2.2.2.1
@[simp] theorem fusePos_tYaw (x : In) (v : PosVar) (ok : Bool) (s : St) : (fusePos x v ok s).tYaw = s.tYaw := (fusePos_frame x v ok s).2.2.2.2.2.2.2.2.2.2.2.2.2.2.2.2.2.2.2.2.2.2.2.2.2.2.2.2.1
@[simp] theorem fusePos_gpsYawFaulty (x : In) (v : PosVar) (ok : Bool) (s : St) : (fusePos x v ok s).gpsYawFaulty = s.gpsYawFaulty := (fusePos_frame x v ok s).2.2.2.2.2.2.2.2.2.2.2.2.2.2.2.2.2.2.2.2.2.2.2.2.2.2.2.2.2.1
@[simp] theorem fusePos_doGsf (x : In) (v : PosVar) (ok : Bool) (s : St) : (fusePos x v ok s).doGsf = s.doGsf := (fusePos_frame x v ok s).2.2.2.2.2.2.2.2.2.2.2.2.2.2.2.2.2.2.2.2.2.2.2.2.2.2.2.2.2.2.1
@[simp] theorem fusePos_gsfTime (x : In) (v : PosVar) (ok : Bool) (s : St) : (fusePos x v ok s).gsfTime = s.gsfTime := (fusePos_frame x v ok s).2.2.2.2.2.2.2.2.2.2.2.2.2.2.2.2.2.2.2.2.2.2.2.2.2.2.2.2.2.2.2.1
@[simp] theorem fusePos_gsfCount (x : In) (v : PosVar) (ok : Bool) (s : St) : (fusePos x v ok s).gsfCount = s.gsfCount := (fusePos_frame x v ok s).2.2.2.2.2.2.2.2.2.2.2.2.2.2.2.2.2.2.2.2.2.2.2.2.2.2.2.2.2.2.2.2.1
@[simp] theorem fusePos_tVel (x : In) (v : PosVar) (ok : Bool) (s : St) : (fusePos x v ok s).tVel = s.tVel := (fusePos_frame x v ok s).2.2.2.2.2.2.2.2.2.2.2.2.2.2.2.2.2.2.2.2.2.2.2.2.2.2.2.2.2.2.2.2.2.1
@[simp] theorem fusePos_tOf (x : In) (v : PosVar) (ok : Bool) (s : St) : (fusePos x v ok s).tOf = s.tOf := (fusePos_frame x v ok s).2.2.2.2.2.2.2.2.2.2.2.2.2.2.2.2.2.2.2.2.2.2.2.2.2.2.2.2.2.2.2.2.2.2.1
@[simp] theorem fusePos_tBeta (x : In) (v : PosVar) (ok : Bool) (s : St) : (fusePos x v ok s).tBeta = s.tBeta := (fusePos_frame x v ok s).2.2.2.2.2.2.2.2.2.2.2.2.2.2.2.2.2.2.2.2.2.2.2.2.2.2.2.2.2.2.2.2.2.2.2.1
@[simp] theorem fusePos_tArsp (x : In) (v : PosVar) (ok : Bool) (s : St) : (fusePos x v ok s).tArsp = s.tArsp := (fusePos_frame x v ok s).2.2.2.2.2.2.2.2.2.2.2.2.2.2.2.2.2.2.2.2.2.2.2.2.2.2.2.2.2.2.2.2.2.2.2.2.1
@[simp] theorem fusePos_tFake (x : In) (v : PosVar) (ok : Bool) (s : St) : (fusePos x v ok s).tFake = s.tFake := (fusePos_frame x v ok s).2.2.2.2.2.2.2.2.2.2.2.2.2.2.2.2.2.2.2.2.2.2.2.2.2.2.2.2.2.2.2.2.2.2.2.2.2.1
@[simp] theorem fusePos_tGpsYaw (x : In) (v : PosVar) (ok : Bool) (s : St) : (fusePos x v ok s).tGpsYaw = s.tGpsYaw := (fusePos_frame x v ok s).2.2.2.2.2.2.2.2.2.2.2.2.2.2.2.2.2.2.2.2.2.2.2.2.2.2.2.2.2.2.2.2.2.2.2.2.2.2.1
@[simp] theorem fusePos_hposPrev (x : In) (v : PosVar) (ok : Bool) (s : St) : (fusePos x v ok s).hposPrev = s.hposPrev := (fusePos_frame x v ok s).2.2.2.2.2.2.2.2.2.2.2.2.2.2.2.2.2.2.2.2.2.2.2.2.2.2.2.2.2.2.2.2.2.2.2.2.2.2.2.1
@[simp] theorem fusePos_hposOdom (x : In) (v : PosVar) (ok : Bool) (s : St) : (fusePos x v ok s).hposOdom = s.hposOdom := (fusePos_frame x v ok s).2.2.2.2.2.2.2.2.2.2.2.2.2.2.2.2.2.2.2.2.2.2.2.2.2.2.2.2.2.2.2.2.2.2.2.2.2.2.2.2.1
@[simp] theorem fusePos_synth (x : In) (v : PosVar) (ok : Bool) (s : St) : (fusePos x v ok s).synth = s.synth := (fusePos_frame x v ok s).2.2.2.2.2.2.2.2.2.2.2.2.2.2.2.2.2.2.2.2.2.2.2.2.2.2.2.2.2.2.2.2.2.2.2.2.2.2.2.2.2.1
@[simp] theorem fusePos_flowReady (x : In) (v : PosVar) (ok : Bool) (s : St) : (fusePos x v ok s).flowReady = s.flowReady := (fusePos_frame x v ok s).2.2.2.2.2.2.2.2.2.2.2.2.2.2.2.2.2.2.2.2.2.2.2.2.2.2.2.2.2.2.2.2.2.2.2.2.2.2.2.2.2.2.1
@[simp] theorem fusePos_flowInh (x : In) (v : PosVar) (ok : Bool) (s : St) : (fusePos x v ok s).flowInh = s.flowInh := (fusePos_frame x v ok s).2.2.2.2.2.2.2.2.2.2.2.2.2.2.2.2.2.2.2.2.2.2.2.2.2.2.2.2.2.2.2.2.2.2.2.2.2.2.2.2.2.2.2.1
@[simp] theorem fusePos_tGood (x : In) (v : PosVar) (ok : Bool) (s : St) : (fusePos x v ok s).tGood = s.tGood := (fusePos_frame x v ok s).2.2.2.2.2.2.2.2.2.2.2.2.2.2.2.2.2.2.2.2.2.2.2.2.2.2.2.2.2.2.2.2.2.2.2.2.2.2.2.2.2.2.2.2.1
@[simp] theorem fusePos_tBad (x : In) (v : PosVar) (ok : Bool) (s : St) : (fusePos x v ok s).tBad = s.tBad := (fusePos_frame x v ok s).2.2.2.2.2.2.2.2.2.2.2.2.2.2.2.2.2.2.2.2.2.2.2.2.2.2.2.2.2.2.2.2.2.2.2.2.2.2.2.2.2.2.2.2.2

theorem otherStopped_frame (s : St) :
    (otherStopped s).tilt = s.tilt ∧ (otherStopped s).yawAlign = s.yawAlign ∧ (otherStopped s).gps = s.gps ∧ (otherStopped s).optFlow = s.optFlow ∧ (otherStopped s).magHdg = s.magHdg ∧ (otherStopped s).mag3D = s.mag3D ∧ (otherStopped s).magDec = s.magDec ∧ (otherStopped s).wind = s.wind ∧ (otherStopped s).evPos = s.evPos ∧ (otherStopped s).evVel = s.evVel ∧ (otherStopped s).evYaw = s.evYaw ∧ (otherStopped s).gpsYaw = s.gpsYaw ∧ (otherStopped s).magDist = s.magDist ∧ (otherStopped s).magFault = s.magFault ∧ (otherStopped s).fuseAspd = s.fuseAspd ∧ (otherStopped s).magAligned = s.magAligned ∧ (otherStopped s).magInhReq = s.magInhReq ∧ (otherStopped s).velposReq = s.velposReq ∧ (otherStopped s).inhibited = s.inhibited ∧ (otherStopped s).yawObs = s.yawObs ∧ (otherStopped s).biasObs = s.biasObs ∧ (otherStopped s).nBad = s.nBad ∧ (otherStopped s).declCovReset = s.declCovReset ∧ (otherStopped s).tAlign = s.tAlign ∧ (otherStopped s).tMov = s.tMov ∧ (otherStopped s).tNotInh = s.tNotInh ∧ (otherStopped s).tYaw = s.tYaw ∧ (otherStopped s).gpsYawFaulty = s.gpsYawFaulty ∧ (otherStopped s).doGsf = s.doGsf ∧ (otherStopped s).gsfTime = s.gsfTime ∧ (otherStopped s).gsfCount = s.gsfCount ∧ (otherStopped s).tPos = s.tPos ∧ (otherStopped s).tDelpos = s.tDelpos ∧ (otherStopped s).tVel = s.tVel ∧ (otherStopped s).tOf = s.tOf ∧ (otherStopped s).tBeta = s.tBeta ∧ (otherStopped s).tArsp = s.tArsp ∧ (otherStopped s).tFake = s.tFake ∧ (otherStopped s).tGpsYaw = s.tGpsYaw ∧ (otherStopped s).hposPrev = s.hposPrev ∧ (otherStopped s).hposOdom = s.hposOdom ∧ (otherStopped s).synth = s.synth ∧ (otherStopped s).flowReady = s.flowReady ∧ (otherStopped s).flowInh = s.flowInh ∧ (otherStopped s).tGood = s.tGood ∧ (otherStopped s).tBad = s.tBad := by
  unfold otherStopped; simp
@[simp] theorem otherStopped_tilt (s : St) : (otherStopped s).tilt = s.tilt := (otherStopped_frame s).1
@[simp] theorem otherStopped_yawAlign (s : St) : (otherStopped s).yawAlign = s.yawAlign := (otherStopped_frame s).2.1
@[simp] theorem otherStopped_gps (s : St) : (otherStopped s).gps = s.gps := (otherStopped_frame s).2.2.1
@[simp] theorem otherStopped_optFlow (s : St) : (otherStopped s).optFlow = s.optFlow := (otherStopped_frame s).2.2.2.1
@[simp] theorem otherStopped_magHdg (s : St) : (otherStopped s).magHdg = s.magHdg := (otherStopped_frame s).2.2.2.2.1
@[simp] theorem otherStopped_mag3D (s : St) : (otherStopped s).mag3D = s.mag3D := (otherStopped_frame s).2.2.2.2.2.1
@[simp] theorem otherStopped_magDec (s : St) : (otherStopped s).magDec = s.magDec := (otherStopped_frame s).2.2.2.2.2.2.1
@[simp] theorem otherStopped_wind (s : St) : (otherStopped s).wind = s.wind := (otherStopped_frame s).2.2.2.2.2.2.2.1
@[simp] theorem otherStopped_evPos (s : St) : (otherStopped s).evPos = s.evPos := (otherStopped_frame s).2.2.2.2.2.2.2.2.1
@[simp] theorem otherStopped_evVel (s : St) : (otherStopped s).evVel = s.evVel := (otherStopped_frame s).2.2.2.2.2.2.2.2.2.1
@[simp] theorem otherStopped_evYaw (s : St) : (otherStopped s).evYaw = s.evYaw := (otherStopped_frame s).2.2.2.2.2.2.2.2.2.2.1
@[simp] theorem otherStopped_gpsYaw (s : St) : (otherStopped s).gpsYaw = s.gpsYaw := (otherStopped_frame s).2.2.2.2.2.2.2.2.2.2.2.1
@[simp] theorem otherStopped_magDist (s : St) : (otherStopped s).magDist = s.magDist := (otherStopped_frame s).2.2.2.2.2.2.2.2.2.2.2.2.1
@[simp] theorem otherStopped_magFault (s : St) : (otherStopped s).magFault = s.magFault := (otherStopped_frame s).2.2.2.2.2.2.2.2.2.2.2.2.2.1
@[simp] theorem otherStopped_fuseAspd (s : St) : (otherStopped s).fuseAspd = s.fuseAspd := (otherStopped_frame s).2.2.2.2.2.2.2.2.2.2.2.2.2.2.1
@[simp] theorem otherStopped_magAligned (s : St) : (otherStopped s).magAligned = s.magAligned := (otherStopped_frame s).2.2.2.2.2.2.2.2.2.2.2.2.2.2.2.1
@[simp] theorem otherStopped_magInhReq (s : St) : (otherStopped s).magInhReq = s.magInhReq := (otherStopped_frame s).2.2.2.2.2.2.2.2.2.2.2.2.2.2.2.2.1
@[simp] theorem otherStopped_velposReq (s : St) : (otherStopped s).velposReq = s.velposReq := (otherStopped_frame s).2.2.2.2.2.2.2.2.2.2.2.2.2.2.2.2.2.1
@[simp] theorem otherStopped_inhibited (s : St) : (otherStopped s).inhibited = s.inhibited := (otherStopped_frame s).2.2.2.2.2.2.2.2.2.2.2.2.2.2.2.2.2.2.1
@[simp] theorem otherStopped_yawObs (s : St) : (otherStopped s).yawObs = s.yawObs := (otherStopped_frame s).2.2.2.2.2.2.2.2.2.2.2.2.2.2.2.2.2.2.2.1
@[simp] theorem otherStopped_biasObs (s : St) : (otherStopped s).biasObs = s.biasObs := (otherStopped_frame s).2.2.2.2.2.2.2.2.2.2.2.2.2.2.2.2.2.2.2.2.1
@[simp] theorem otherStopped_nBad (s : St) : (otherStopped s).nBad = s.nBad := (otherStopped_frame s).2.2.2.2.2.2.2.2.2.2.2.2.2.2.2.2.2.2.2.2.2.1
@[simp] theorem otherStopped_declCovReset (s : St) : (otherStopped s).declCovReset = s.declCovReset := (otherStopped_frame s).2.2.2.2.2.2.2.2.2.2.2.2.2.2.2.2.2.2.2.2.2.2.1
@[simp] theorem otherStopped_tAlign (s : St) : (otherStopped s).tAlign = s.tAlign := (otherStopped_frame s).2.2.2.2.2.2.2.2.2.2.2.2.2.2.2.2.2.2.2.2.2.2.2.1
@[simp] theorem otherStopped_tMov (s : St) : (otherStopped s).tMov = s.tMov := (otherStopped_frame s).2.2.2.2.2.2.2.2.2.2.2.2.2.2.2.2.2.2.2.2.2.2.2.2.1
@[simp] theorem otherStopped_tNotInh (s : St) : (otherStopped s).tNotInh = s.tNotInh := (otherStopped_frame s).2.2.2.2.2.2.2.2.2.2.2.2.2.2.2.2.2.2.2.2.2.2.2.2.2.1
@[simp] theorem otherStopped_tYaw (s : St) : (otherStopped s).tYaw = s.tYaw := (otherStopped_frame s).2.2.2.2.2.2.2.2.2.2.2.2.2.2.2.2.2.2.2.2.2.2.2.2.2.2.1
@[simp] theorem otherStopped_gpsYawFaulty (s : St) : (otherStopped s).gpsYawFaulty = s.gpsYawFaulty := (otherStopped_frame s).2.2.2.2.2.2.2.2.2.2.2.2.2.2.2.2.2.2.2.2.2.2.2.2.2.2.2.1
@[simp] theorem otherStopped_doGsf (s : St) : (otherStopped s).doGsf = s.doGsf := (otherStopped_frame s).2.2.2.2.2.2.2.2.2.2.2.2.2.2.2.2.2.2.2.2.2.2.2.2.2.2.2.2.1
@[simp] theorem otherStopped_gsfTime (s : St) : (otherStopped s).gsfTime = s.gsfTime := (otherStopped_frame s).2.2.2.2.2.2.2.2.2.2.2.2.2.2.2.2.2.2.2.2.2.2.2.2.2.2.2.2.2.1
@[simp] theorem otherStopped_gsfCount (s : St) : (otherStopped s).gsfCount = s.gsfCount := (otherStopped_frame s).2.2.2.2.2.2.2.2.2.2.2.2.2.2.2.2.2.2.2.2.2.2.2.2.2.2.2.2.2.2.1
@[simp] theorem otherStopped_tPos (s : St) : (otherStopped s).tPos = s.tPos := (otherStopped_frame s).2.2.2.2.2.2.2.2.2.2.2.2.2.2.2.2.2.2.2.2.2.2.2.2.2.2.2.2.2.2.2.1
@[simp] theorem otherStopped_tDelpos (s : St) : (otherStopped s).tDelpos = s.tDelpos := (otherStopped_frame s).2.2.2.2.2.2.2.2.2.2.2.2.2.2.2.2.2.2.2.2.2.2.2.2.2.2.2.2.2.2.2.2.1
@[simp] theorem otherStopped_tVel (s : St) : (otherStopped s).tVel = s.tVel := (otherStopped_frame s).2.2.2.2.2.2.2.2.2.2.2.2.2.2.2.2.2.2.2.2.2.2.2.2.2.2.2.2.2.2.2.2.2.1
@[simp] theorem otherStopped_tOf (s : St) : (otherStopped s).tOf = s.tOf := (otherStopped_frame s).2.2.2.2.2.2.2.2.2.2.2.2.2.2.2.2.2.2.2.2.2.2.2.2.2.2.2.2.2.2.2.2.2.2.1
@[simp] theorem otherStopped_tBeta (s : St) : (otherStopped s).tBeta = s.tBeta := (otherStopped_frame s).2.2.2.2.2.2.2.2.2.2.2.2.2.2.2.2.2.2.2.2.2.2.2.2.2.2.2.2.2.2.2.2.2.2.2.1
@[simp] theorem otherStopped_tArsp (s : St) : (otherStopped s).tArsp = s.tArsp := (otherStopped_frame s).2.2.2.2.2.2.2.2.2.2.2.2.2.2.2.2.2.2.2.2.2.2.2.2.2.2.2.2.2.2.2.2.2.2.2.2.1
@[simp] theorem otherStopped_tFake (s : St) : (otherStopped s).tFake = s.tFake := (otherStopped_frame s).2.2.2.2.2.2.2.2.2.2.2.2.2.2.2.2.2.2.2.2.2.2.2.2.2.2.2.2.2.2.2.2.2.2.2.2.2.1
@[simp] theorem otherStopped_tGpsYaw (s : St) : (otherStopped s).tGpsYaw = s.tGpsYaw := (otherStopped_frame s).2.2.2.2.2.2.2.2.2.2.2.2.2.2.2.2.2.2.2.2.2.2.2.2.2.2.2.2.2.2.2.2.2.2.2.2.2.2.1
@[simp] theorem otherStopped_hposPrev (s : St) : (otherStopped s).hposPrev = s.hposPrev := (otherStopped_frame s).2.2.2.2.2.2.2.2.2.2.2.2.2.2.2.2.2.2.2.2.2.2.2.2.2.2.2.2.2.2.2.2.2.2.2.2.2.2.2.1
@[simp] theorem otherStopped_hposOdom (s : St) : (otherStopped s).hposOdom = s.hposOdom := (otherStopped_frame s).2.2.2.2.2.2.2.2.2.2.2.2.2.2.2.2.2.2.2.2.2.2.2.2.2.2.2.2.2.2.2.2.2.2.2.2.2.2.2.2.1
@[simp] theorem otherStopped_synth (s : St) : (otherStopped s).synth = s.synth := (otherStopped_frame s).2.2.2.2.2.2.2.2.2.2.2.2.2.2.2.2.2.2.2.2.2.2.2.2.2.2.2.2.2.2.2.2.2.2.2.2.2.2.2.2.2.1
@[simp] theorem otherStopped_flowReady (s : St) : (otherStopped s).flowReady = s.flowReady := (otherStopped_frame s).2.2.2.2.2.2.2.2.2.2.2.2.2.2.2.2.2.2.2.2.2.2.2.2.2.2.2.2.2.2.2.2.2.2.2.2.2.2.2.2.2.2.1
@[simp] theorem otherStopped_flowInh (s : St) : (otherStopped s).flowInh = s.flowInh := (otherStopped_frame s).2.2.2.2.2.2.2.2.2.2.2.2.2.2.2.2.2.2.2.2.2.2.2.2.2.2.2.2.2.2.2.2.2.2.2.2.2.2.2.2.2.2.2.1
@[simp] theorem otherStopped_tGood (s : St) : (otherStopped s).tGood = s.tGood := (otherStopped_frame s).2.2.2.2.2.2.2.2.2.2.2.2.2.2.2.2.2.2.2.2.2.2.2.2.2.2.2.2.2.2.2.2.2.2.2.2.2.2.2.2.2.2.2.2.1
@[simp] theorem otherStopped_tBad (s : St) : (otherStopped s).tBad = s.tBad := (otherStopped_frame s).2.2.2.2.2.2.2.2.2.2.2.2.2.2.2.2.2.2.2.2.2.2.2.2.2.2.2.2.2.2.2.2.2.2.2.2.2.2.2.2.2.2.2.2.2

theorem checkHagl_frame (x : In) (s : St) :
    (checkHagl x s).tilt = s.tilt ∧ (checkHagl x s).yawAlign = s.yawAlign ∧ (checkHagl x s).gps = s.gps ∧ (checkHagl x s).optFlow = s.optFlow ∧ (checkHagl x s).magHdg = s.magHdg ∧ (checkHagl x s).mag3D = s.mag3D ∧ (checkHagl x s).magDec = s.magDec ∧ (checkHagl x s).wind = s.wind ∧ (checkHagl x s).evPos = s.evPos ∧ (checkHagl x s).evVel = s.evVel ∧ (checkHagl x s).evYaw = s.evYaw ∧ (checkHagl x s).gpsYaw = s.gpsYaw ∧ (checkHagl x s).magDist = s.magDist ∧ (checkHagl x s).magFault = s.magFault ∧ (checkHagl x s).fuseAspd = s.fuseAspd ∧ (checkHagl x s).magAligned = s.magAligned ∧ (checkHagl x s).magInhReq = s.magInhReq ∧ (checkHagl x s).velposReq = s.velposReq ∧ (checkHagl x s).inhibited = s.inhibited ∧ (checkHagl x s).nonMagPrev = s.nonMagPrev ∧ (checkHagl x s).yawObs = s.yawObs ∧ (checkHagl x s).biasObs = s.biasObs ∧ (checkHagl x s).nBad = s.nBad ∧ (checkHagl x s).declCovReset = s.declCovReset ∧ (checkHagl x s).tAlign = s.tAlign ∧ (checkHagl x s).tMov = s.tMov ∧ (checkHagl x s).tNotInh = s.tNotInh ∧ (checkHagl x s).tYaw = s.tYaw ∧ (checkHagl x s).gpsYawFaulty = s.gpsYawFaulty ∧ (checkHagl x s).doGsf = s.doGsf ∧ (checkHagl x s).gsfTime = s.gsfTime ∧ (checkHagl x s).gsfCount = s.gsfCount ∧ (checkHagl x s).tPos = s.tPos ∧ (checkHagl x s).tDelpos = s.tDelpos ∧ (checkHagl x s).tVel = s.tVel ∧ (checkHagl x s).tOf = s.tOf ∧ (checkHagl x s).tBeta = s.tBeta ∧ (checkHagl x s).tArsp = s.tArsp ∧ (checkHagl x s).tFake = s.tFake ∧ (checkHagl x s).tGpsYaw = s.tGpsYaw ∧ (checkHagl x s).hposPrev = s.hposPrev ∧ (checkHagl x s).hposOdom = s.hposOdom ∧ (checkHagl x s).synth = s.synth ∧ (checkHagl x s).flowReady = s.flowReady ∧ (checkHagl x s).flowInh = s.flowInh ∧ (checkHagl x s).tGood = s.tGood ∧ (checkHagl x s).tBad = s.tBad := by
  unfold checkHagl; (try dsimp only); split_ifs <;> simp [*]
@[simp] theorem checkHagl_tilt (x : In) (s : St) : (checkHagl x s).tilt = s.tilt := (checkHagl_frame x s).1
@[simp] theorem checkHagl_yawAlign (x : In) (s : St) : (checkHagl x s).yawAlign = s.yawAlign := (checkHagl_frame x s).2.1
@[simp] theorem checkHagl_gps (x : In) (s : St) : (checkHagl x s).gps = s.gps := (checkHagl_frame x s).2.2.1
@[simp] theorem checkHagl_optFlow (x : In) (s : St) : (checkHagl x s).optFlow = s.optFlow := (checkHagl_frame x s).2.2.2.1
@[simp] theorem checkHagl_magHdg (x : In) (s : St) : (checkHagl x s).magHdg = s.magHdg := (checkHagl_frame x s).2.2.2.2.1
@[simp] theorem checkHagl_mag3D (x : In) (s : St) : (checkHagl x s).mag3D = s.mag3D := (checkHagl_frame x s).2.2.2.2.2.1
@[simp] theorem checkHagl_magDec (x : In) (s : St) : (checkHagl x s).magDec = s.magDec := (checkHagl_frame x s).2.2.2.2.2.2.1
@[simp] theorem checkHagl_wind (x : In) (s : St) : (checkHagl x s).wind = s.wind := (checkHagl_frame x s).2.2.2.2.2.2.2.1
@[simp] theorem checkHagl_evPos (x : In) (s : St) : (checkHagl x s).evPos = s.evPos := (checkHagl_frame x s).2.2.2.2.2.2.2.2.1
@[simp] theorem checkHagl_evVel (x : In) (s : St) : (checkHagl x s).evVel = s.evVel := (checkHagl_frame x s).2.2.2.2.2.2.2.2.2.1
@[simp] theorem checkHagl_evYaw (x : In) (s : St) : (checkHagl x s).evYaw = s.evYaw := (checkHagl_frame x s).2.2.2.2.2.2.2.2.2.2.1
@[simp] theorem checkHagl_gpsYaw (x : In) (s : St) : (checkHagl x s).gpsYaw = s.gpsYaw := (checkHagl_frame x s).2.2.2.2.2.2.2.2.2.2.2.1
@[simp] theorem checkHagl_magDist (x : In) (s : St) : (checkHagl x s).magDist = s.magDist := (checkHagl_frame x s).2.2.2.2.2.2.2.2.2.2.2.2.1
@[simp] theorem checkHagl_magFault (x : In) (s : St) : (checkHagl x s).magFault = s.magFault := (checkHagl_frame x s).2.2.2.2.2.2.2.2.2.2.2.2.2.1
@[simp] theorem checkHagl_fuseAspd (x : In) (s : St) : (checkHagl x s).fuseAspd = s.fuseAspd := (checkHagl_frame x s).2.2.2.2.2.2.2.2.2.2.2.2.2.2.1
@[simp] theorem checkHagl_magAligned (x : In) (s : St) : (checkHagl x s).magAligned = s.magAligned := (checkHagl_frame x s).2.2.2.2.2.2.2.2.2.2.2.2.2.2.2.1
@[simp] theorem checkHagl_magInhReq (x : In) (s : St) : (checkHagl x s).magInhReq = s.magInhReq := (checkHagl_frame x s).2.2.2.2.2.2.2.2.2.2.2.2.2.2.2.2.1
@[simp] theorem checkHagl_velposReq (x : In) (s : St) : (checkHagl x s).velposReq = s.velposReq := (checkHagl_frame x s).2.2.2.2.2.2.2.2.2.2.2.2.2.2.2.2.2.1
@[simp] theorem checkHagl_inhibited (x : In) (s : St) : (checkHagl x s).inhibited = s.inhibited := (checkHagl_frame x s).2.2.2.2.2.2.2.2.2.2.2.2.2.2.2.2.2.2.1
@[simp] theorem checkHagl_nonMagPrev (x : In) (s : St) : (checkHagl x s).nonMagPrev = s.nonMagPrev := (checkHagl_frame x s).2.2.2.2.2.2.2.2.2.2.2.2.2.2.2.2.2.2.2.1
@[simp] theorem checkHagl_yawObs (x : In) (s : St) : (checkHagl x s).yawObs = s.yawObs := (checkHagl_frame x s).2.2.2.2.2.2.2.2.2.2.2.2.2.2.2.2.2.2.2.2.1
@[simp] theorem checkHagl_biasObs (x : In) (s : St) : (checkHagl x s).biasObs = s.biasObs := (checkHagl_frame x s).2.2.2.2.2.2.2.2.2.2.2.2.2.2.2.2.2.2.2.2.2.1
@[simp] theorem checkHagl_nBad (x : In) (s : St) : (checkHagl x s).nBad = s.nBad := (checkHagl_frame x s).2.2.2.2.2.2.2.2.2.2.2.2.2.2.2.2.2.2.2.2.2.2.1
@[simp] theorem checkHagl_declCovReset (x : In) (s : St) : (checkHagl x s).declCovReset = s.declCovReset := (checkHagl_frame x s).2.2.2.2.2.2.2.2.2.2.2.2.2.2.2.2.2.2.2.2.2.2.2.1
@[simp] theorem checkHagl_tAlign (x : In) (s : St) : (checkHagl x s).tAlign = s.tAlign := (checkHagl_frame x s).2.2.2.2.2.2.2.2.2.2.2.2.2.2.2.2.2.2.2.2.2.2.2.2.1
@[simp] theorem checkHagl_tMov (x : In) (s : St) : (checkHagl x s).tMov = s.tMov := (checkHagl_frame x s).2.2.2.2.2.2.2.2.2.2.2.2.2.2.2.2.2.2.2.2.2.2.2.2.2.1
@[simp] theorem checkHagl_tNotInh (x : In) (s : St) : (checkHagl x s).tNotInh = s.tNotInh := (checkHagl_frame x s).2.2.2.2.2.2.2.2.2.2.2.2.2.2.2.2.2.2.2.2.2.2.2.2.2.2.1
@[simp] theorem checkHagl_tYaw (x : In) (s : St) : (checkHagl x s).tYaw = s.tYaw := (checkHagl_frame x s).2.2.2.2.2.2.2.2.2.2.2.2.2.2.2.2.2.2.2.2.2.2.2.2.2.2.2.1
@[simp] theorem checkHagl_gpsYawFaulty (x : In) (s : St) : (checkHagl x s).gpsYawFaulty = s.gpsYawFaulty := (checkHagl_frame x s).2.2.2.2.2.2.2.2.2.2.2.2.2.2.2.2.2.2.2.2.2.2.2.2.2.2.2.2.1
@[simp] theorem checkHagl_doGsf (x : In) (s : St) : (checkHagl x s).doGsf = s.doGsf := (checkHagl_frame x s).2.2.2.2.2.2.2.2.2.2.2.2.2.2.2.2.2.2.2.2.2.2.2.2.2.2.2.2.2.1
@[simp] theorem checkHagl_gsfTime (x : In) (s : St) : (checkHagl x s).gsfTime = s.gsfTime := (checkHagl_frame x s).2.2.2.2.2.2.2.2.2.2.2.2.2.2.2.2.2.2.2.2.2.2.2.2.2.2.2.2.2.2.1
@[simp] theorem checkHagl_gsfCount (x : In) (s : St) : (checkHagl x s).gsfCount = s.gsfCount := (checkHagl_frame x s).2.2.2.2.2.2.2.2.2.2.2.2.2.2.2.2.2.2.2.2.2.2.2.2.2.2.2.2.2.2.2.1
@[simp] theorem checkHagl_tPos (x : In) (s : St) : (checkHagl x s).tPos = s.tPos := (checkHagl_frame x s).2.2.2.2.2.2.2.2.2.2.2.2.2.2.2.2.2.2.2.2.2.2.2.2.2.2.2.2.2.2.2.2.1
@[simp] theorem checkHagl_tDelpos (x : In) (s : St) : (checkHagl x s).tDelpos = s.tDelpos := (checkHagl_frame x s).2.2.2.2.2.2.2.2.2.2.2.2.2.2.2.2.2.2.2.2.2.2.2.2.2.2.2.2.2.2.2.2.2.1
@[simp] theorem checkHagl_tVel (x : In) (s : St) : (checkHagl x s).tVel = s.tVel := (checkHagl_frame x s).2.2.2.2.2.2.2.2.2.2.2.2.2.2.2.2.2.2.2.2.2.2.2.2.2.2.2.2.2.2.2.2.2.2.1
@[simp] theorem checkHagl_tOf (x : In) (s : St) : (checkHagl x s).tOf = s.tOf := (checkHagl_frame x s).2.2.2.2.2.2.2.2.2.2.2.2.2.2.2.2.2.2.2.2.2.2.2.2.2.2.2.2.2.2.2.2.2.2.2.1
@[simp] theorem checkHagl_tBeta (x : In) (s : St) : (checkHagl x s).tBeta = s.tBeta := (checkHagl_frame x s).2.2.2.2.2.2.2.2.2.2.2.2.2.2.2.2.2.2.2.2.2.2.2.2.2.2.2.2.2.2.2.2.2.2.2.2.1
@[simp] theorem checkHagl_tArsp (x : In) (s : St) : (checkHagl x s).tArsp = s.tArsp := (checkHagl_frame x s).2.2.2.2.2.2.2.2.2.2.2.2.2.2.2.2.2.2.2.2.2.2.2.2.2.2.2.2.2.2.2.2.2.2.2.2.2.1
@[simp] theorem checkHagl_tFake (x : In) (s : St) : (checkHagl x s).tFake = s.tFake := (checkHagl_frame x s).2.2.2.2.2.2.2.2.2.2.2.2.2.2.2.2.2.2.2.2.2.2.2.2.2.2.2.2.2.2.2.2.2.2.2.2.2.2.1
@[simp] theorem checkHagl_tGpsYaw (x : In) (s : St) : (checkHagl x s).tGpsYaw = s.tGpsYaw := (checkHagl_frame x s).2.2.2.2.2.2.2.2.2.2.2.2.2.2.2.2.2.2.2.2.2.2.2.2.2.2.2.2.2.2.2.2.2.2.2.2.2.2.2.1
@[simp] theorem checkHagl_hposPrev (x : In) (s : St) : (checkHagl x s).hposPrev = s.hposPrev := (checkHagl_frame x s).2.2.2.2.2.2.2.2.2.2.2.2.2.2.2.2.2.2.2.2.2.2.2.2.2.2.2.2.2.2.2.2.2.2.2.2.2.2.2.2.1
@[simp] theorem checkHagl_hposOdom (x : In) (s : St) : (checkHagl x s).hposOdom = s.hposOdom := (checkHagl_frame x s).2.2.2.2.2.2.2.2.2.2.2.2.2.2.2.2.2.2.2.2.2.2.2.2.2.2.2.2.2.2.2.2.2.2.2.2.2.2.2.2.2.1
@[simp] theorem checkHagl_synth (x : In) (s : St) : (checkHagl x s).synth = s.synth := (checkHagl_frame x s).2.2.2.2.2.2.2.2.2.2.2.2.2.2.2.2.2.2.2.2.2.2.2.2.2.2.2.2.2.2.2.2.2.2.2.2.2.2.2.2.2.2.1
@[simp] theorem checkHagl_flowReady (x : In) (s : St) : (checkHagl x s).flowReady = s.flowReady := (checkHagl_frame x s).2.2.2.2.2.2.2.2.2.2.2.2.2.2.2.2.2.2.2.2.2.2.2.2.2.2.2.2.2.2.2.2.2.2.2.2.2.2.2.2.2.2.2.1
@[simp] theorem checkHagl_flowInh (x : In) (s : St) : (checkHagl x s).flowInh = s.flowInh := (checkHagl_frame x s).2.2.2.2.2.2.2.2.2.2.2.2.2.2.2.2.2.2.2.2.2.2.2.2.2.2.2.2.2.2.2.2.2.2.2.2.2.2.2.2.2.2.2.2.1
@[simp] theorem checkHagl_tGood (x : In) (s : St) : (checkHagl x s).tGood = s.tGood := (checkHagl_frame x s).2.2.2.2.2.2.2.2.2.2.2.2.2.2.2.2.2.2.2.2.2.2.2.2.2.2.2.2.2.2.2.2.2.2.2.2.2.2.2.2.2.2.2.2.2.1
@[simp] theorem checkHagl_tBad (x : In) (s : St) : (checkHagl x s).tBad = s.tBad := (checkHagl_frame x s).2.2.2.2.2.2.2.2.2.2.2.2.2.2.2.2.2.2.2.2.2.2.2.2.2.2.2.2.2.2.2.2.2.2.2.2.2.2.2.2.2.2.2.2.2.2

theorem groundYawReset_frame (x : In) (s : St) :
    (groundYawReset x s).tilt = s.tilt ∧ (groundYawReset x s).yawAlign = s.yawAlign ∧ (groundYawReset x s).gps = s.gps ∧ (groundYawReset x s).optFlow = s.optFlow ∧ (groundYawReset x s).magDec = s.magDec ∧ (groundYawReset x s).wind = s.wind ∧ (groundYawReset x s).evPos = s.evPos ∧ (groundYawReset x s).evVel = s.evVel ∧ (groundYawReset x s).evYaw = s.evYaw ∧ (groundYawReset x s).gpsYaw = s.gpsYaw ∧ (groundYawReset x s).magDist = s.magDist ∧ (groundYawReset x s).magFault = s.magFault ∧ (groundYawReset x s).fuseAspd = s.fuseAspd ∧ (groundYawReset x s).magAligned = s.magAligned ∧ (groundYawReset x s).magInhReq = s.magInhReq ∧ (groundYawReset x s).velposReq = s.velposReq ∧ (groundYawReset x s).inhibited = s.inhibited ∧ (groundYawReset x s).nonMagPrev = s.nonMagPrev ∧ (groundYawReset x s).yawObs = s.yawObs ∧ (groundYawReset x s).biasObs = s.biasObs ∧ (groundYawReset x s).nBad = s.nBad ∧ (groundYawReset x s).tMov = s.tMov ∧ (groundYawReset x s).tNotInh = s.tNotInh ∧ (groundYawReset x s).tYaw = s.tYaw ∧ (groundYawReset x s).gpsYawFaulty = s.gpsYawFaulty ∧ (groundYawReset x s).doGsf = s.doGsf ∧ (groundYawReset x s).gsfTime = s.gsfTime ∧ (groundYawReset x s).gsfCount = s.gsfCount ∧ (groundYawReset x s).tPos = s.tPos ∧ (groundYawReset x s).tDelpos = s.tDelpos ∧ (groundYawReset x s).tVel = s.tVel ∧ (groundYawReset x s).tOf = s.tOf ∧ (groundYawReset x s).tBeta = s.tBeta ∧ (groundYawReset x s).tArsp = s.tArsp ∧ (groundYawReset x s).tFake = s.tFake ∧ (groundYawReset x s).tGpsYaw = s.tGpsYaw ∧ (groundYawReset x s).hposPrev = s.hposPrev ∧ (groundYawReset x s).hposOdom = s.hposOdom ∧ (groundYawReset x s).synth = s.synth ∧ (groundYawReset x s).flowReady = s.flowReady ∧ (groundYawReset x s).flowInh = s.flowInh ∧ (groundYawReset x s).tGood = s.tGood ∧ (groundYawReset x s).tBad = s.tBad := by
  unfold groundYawReset; (try dsimp only); split_ifs <;> simp [*]
@[simp] theorem groundYawReset_tilt (x : In) (s : St) : (groundYawReset x s).tilt = s.tilt := (groundYawReset_frame x s).1
@[simp] theorem groundYawReset_yawAlign (x : In) (s : St) : (groundYawReset x s).yawAlign = s.yawAlign := (groundYawReset_frame x s).2.1
@[simp] theorem groundYawReset_gps (x : In) (s : St) : (groundYawReset x s).gps = s.gps := (groundYawReset_frame x s).2.2.1
@[simp] theorem groundYawReset_optFlow (x : In) (s : St) : (groundYawReset x s).optFlow = s.optFlow := (groundYawReset_frame x s).2.2.2.1
@[simp] theorem groundYawReset_magDec (x : In) (s : St) : (groundYawReset x s).magDec = s.magDec := (groundYawReset_frame x s).2.2.2.2.1
@[simp] theorem groundYawReset_wind (x : In) (s : St) : (groundYawReset x s).wind = s.wind := (groundYawReset_frame x s).2.2.2.2.2.1
@[simp] theorem groundYawReset_evPos (x : In) (s : St) : (groundYawReset x s).evPos = s.evPos := (groundYawReset_frame x s).2.2.2.2.2.2.1
@[simp] theorem groundYawReset_evVel (x : In) (s : St) : (groundYawReset x s).evVel = s.evVel := (groundYawReset_frame x s).2.2.2.2.2.2.2.1
@[simp] theorem groundYawReset_evYaw (x : In) (s : St) : (groundYawReset x s).evYaw = s.evYaw := (groundYawReset_frame x s).2.2.2.2.2.2.2.2.1
@[simp] theorem groundYawReset_gpsYaw (x : In) (s : St) : (groundYawReset x s).gpsYaw = s.gpsYaw := (groundYawReset_frame x s).2.2.2.2.2.2.2.2.2.1
@[simp] theorem groundYawReset_magDist (x : In) (s : St) : (groundYawReset x s).magDist = s.magDist := (groundYawReset_frame x s).2.2.2.2.2.2.2.2.2.2.1
@[simp] theorem groundYawReset_magFault (x : In) (s : St) : (groundYawReset x s).magFault = s.magFault := (groundYawReset_frame x s).2.2.2.2.2.2.2.2.2.2.2.1
@[simp] theorem groundYawReset_fuseAspd (x : In) (s : St) : (groundYawReset x s).fuseAspd = s.fuseAspd := (groundYawReset_frame x s).2.2.2.2.2.2.2.2.2.2.2.2.1
@[simp] theorem groundYawReset_magAligned (x : In) (s : St) : (groundYawReset x s).magAligned = s.magAligned := (groundYawReset_frame x s).2.2.2.2.2.2.2.2.2.2.2.2.2.1
@[simp] theorem groundYawReset_magInhReq (x : In) (s : St) : (groundYawReset x s).magInhReq = s.magInhReq := (groundYawReset_frame x s).2.2.2.2.2.2.2.2.2.2.2.2.2.2.1
@[simp] theorem groundYawReset_velposReq (x : In) (s : St) : (groundYawReset x s).velposReq = s.velposReq := (groundYawReset_frame x s).2.2.2.2.2.2.2.2.2.2.2.2.2.2.2.1
@[simp] theorem groundYawReset_inhibited (x : In) (s : St) : (groundYawReset x s).inhibited = s.inhibited := (groundYawReset_frame x s).2.2.2.2.2.2.2.2.2.2.2.2.2.2.2.2.1
@[simp] theorem groundYawReset_nonMagPrev (x : In) (s : St) : (groundYawReset x s).nonMagPrev = s.nonMagPrev := (groundYawReset_frame x s).2.2.2.2.2.2.2.2.2.2.2.2.2.2.2.2.2.1
@[simp] theorem groundYawReset_yawObs (x : In) (s : St) : (groundYawReset x s).yawObs = s.yawObs := (groundYawReset_frame x s).2.2.2.2.2.2.2.2.2.2.2.2.2.2.2.2.2.2.1
@[simp] theorem groundYawReset_biasObs (x : In) (s : St) : (groundYawReset x s).biasObs = s.biasObs := (groundYawReset_frame x s).2.2.2.2.2.2.2.2.2.2.2.2.2.2.2.2.2.2.2.1
@[simp] theorem groundYawReset_nBad (x : In) (s : St) : (groundYawReset x s).nBad = s.nBad := (groundYawReset_frame x s).2.2.2.2.2.2.2.2.2.2.2.2.2.2.2.2.2.2.2.2.1
@[simp] theorem groundYawReset_tMov (x : In) (s : St) : (groundYawReset x s).tMov = s.tMov := (groundYawReset_frame x s).2.2.2.2.2.2.2.2.2.2.2.2.2.2.2.2.2.2.2.2.2.1
@[simp] theorem groundYawReset_tNotInh (x : In) (s : St) : (groundYawReset x s).tNotInh = s.tNotInh := (groundYawReset_frame x s).2.2.2.2.2.2.2.2.2.2.2.2.2.2.2.2.2.2.2.2.2.2.1
@[simp] theorem groundYawReset_tYaw (x : In) (s : St) : (groundYawReset x s).tYaw = s.tYaw := (groundYawReset_frame x s).2.2.2.2.2.2.2.2.2.2.2.2.2.2.2.2.2.2.2.2.2.2.2.1
@[simp] theorem groundYawReset_gpsYawFaulty (x : In) (s : St) : (groundYawReset x s).gpsYawFaulty = s.gpsYawFaulty := (groundYawReset_frame x s).2.2.2.2.2.2.2.2.2.2.2.2.2.2.2.2.2.2.2.2.2.2.2.2.1
@[simp] theorem groundYawReset_doGsf (x : In) (s : St) : (groundYawReset x s).doGsf = s.doGsf := (groundYawReset_frame x s).2.2.2.2.2.2.2.2.2.2.2.2.2.2.2.2.2.2.2.2.2.2.2.2.2.1
@[simp] theorem groundYawReset_gsfTime (x : In) (s : St) : (groundYawReset x s).gsfTime = s.gsfTime := (groundYawReset_frame x s).2.2.2.2.2.2.2.2.2.2.2.2.2.2.2.2.2.2.2.2.2.2.2.2.2.2.1
@[simp] theorem groundYawReset_gsfCount (x : In) (s : St) : (groundYawReset x s).gsfCount = s.gsfCount := (groundYawReset_frame x s).2.2.2.2.2.2.2.2.2.2.2.2.2.2.2.2.2.2.2.2.2.2.2.2.2.2.2.1
@[simp] theorem groundYawReset_tPos (x : In) (s : St) : (groundYawReset x s).tPos = s.tPos := (groundYawReset_frame x s).2.2.2.2.2.2.2.2.2.2.2.2.2.2.2.2.2.2.2.2.2.2.2.2.2.2.2.2.1
@[simp] theorem groundYawReset_tDelpos (x : In) (s : St) : (groundYawReset x s).tDelpos = s.tDelpos := (groundYawReset_frame x s).2.2.2.2.2.2.2.2.2.2.2.2.2.2.2.2.2.2.2.2.2.2.2.2.2.2.2.2.2.1
@[simp] theorem groundYawReset_tVel (x : In) (s : St) : (groundYawReset x s).tVel = s.tVel := (groundYawReset_frame x s).2.2.2.2.2.2.2.2.2.2.2.2.2.2.2.2.2.2.2.2.2.2.2.2.2.2.2.2.2.2.1
@[simp] theorem groundYawReset_tOf (x : In) (s : St) : (groundYawReset x s).tOf = s.tOf := (groundYawReset_frame x s).2.2.2.2.2.2.2.2.2.2.2.2.2.2.2.2.2.2.2.2.2.2.2.2.2.2.2.2.2.2.2.1
@[simp] theorem groundYawReset_tBeta (x : In) (s : St) : (groundYawReset x s).tBeta = s.tBeta := (groundYawReset_frame x s).2.2.2.2.2.2.2.2.2.2.2.2.2.2.2.2.2.2.2.2.2.2.2.2.2.2.2.2.2.2.2.2.1
@[simp] theorem groundYawReset_tArsp (x : In) (s : St) : (groundYawReset x s).tArsp = s.tArsp := (groundYawReset_frame x s).2.2.2.2.2.2.2.2.2.2.2.2.2.2.2.2.2.2.2.2.2.2.2.2.2.2.2.2.2.2.2.2.2.1
@[simp] theorem groundYawReset_tFake (x : In) (s : St) : (groundYawReset x s).tFake = s.tFake := (groundYawReset_frame x s).2.2.2.2.2.2.2.2.2.2.2.2.2.2.2.2.2.2.2.2.2.2.2.2.2.2.2.2.2.2.2.2.2.2.1
@[simp] theorem groundYawReset_tGpsYaw (x : In) (s : St) : (groundYawReset x s).tGpsYaw = s.tGpsYaw := (groundYawReset_frame x s).2.2.2.2.2.2.2.2.2.2.2.2.2.2.2.2.2.2.2.2.2.2.2.2.2.2.2.2.2.2.2.2.2.2.2.1
@[simp] theorem groundYawReset_hposPrev (x : In) (s : St) : (groundYawReset x s).hposPrev = s.hposPrev := (groundYawReset_frame x s).2.2.2.2.2.2.2.2.2.2.2.2.2.2.2.2.2.2.2.2.2.2.2.2.2.2.2.2.2.2.2.2.2.2.2.2.1
@[simp] theorem groundYawReset_hposOdom (x : In) (s : St) : (groundYawReset x s).hposOdom = s.hposOdom := (groundYawReset_frame x s).2.2.2.2.2.2.2.2.2.2.2.2.2.2.2.2.2.2.2.2.2.2.2.2.2.2.2.2.2.2.2.2.2.2.2.2.2.1
@[simp] theorem groundYawReset_synth (x : In) (s : St) : (groundYawReset x s).synth = s.synth := (groundYawReset_frame x s).2.2.2.2.2.2.2.2.2.2.2.2.2.2.2.2.2.2.2.2.2.2.2.2.2.2.2.2.2.2.2.2.2.2.2.2.2.2.1
@[simp] theorem groundYawReset_flowReady (x : In) (s : St) : (groundYawReset x s).flowReady = s.flowReady := (groundYawReset_frame x s).2.2.2.2.2.2.2.2.2.2.2.2.2.2.2.2.2.2.2.2.2.2.2.2.2.2.2.2.2.2.2.2.2.2.2.2.2.2.2.1
@[simp] theorem groundYawReset_flowInh (x : In) (s : St) : (groundYawReset x s).flowInh = s.flowInh := (groundYawReset_frame x s).2.2.2.2.2.2.2.2.2.2.2.2.2.2.2.2.2.2.2.2.2.2.2.2.2.2.2.2.2.2.2.2.2.2.2.2.2.2.2.2.1
@[simp] theorem groundYawReset_tGood (x : In) (s : St) : (groundYawReset x s).tGood = s.tGood := (groundYawReset_frame x s).2.2.2.2.2.2.2.2.2.2.2.2.2.2.2.2.2.2.2.2.2.2.2.2.2.2.2.2.2.2.2.2.2.2.2.2.2.2.2.2.2.1
@[simp] theorem groundYawReset_tBad (x : In) (s : St) : (groundYawReset x s).tBad = s.tBad := (groundYawReset_frame x s).2.2.2.2.2.2.2.2.2.2.2.2.2.2.2.2.2.2.2.2.2.2.2.2.2.2.2.2.2.2.2.2.2.2.2.2.2.2.2.2.2.2

theorem airYawReset_frame (x : In) (s : St) :
    (airYawReset x s).tilt = s.tilt ∧ (airYawReset x s).yawAlign = s.yawAlign ∧ (airYawReset x s).gps = s.gps ∧ (airYawReset x s).optFlow = s.optFlow ∧ (airYawReset x s).magDec = s.magDec ∧ (airYawReset x s).wind = s.wind ∧ (airYawReset x s).evPos = s.evPos ∧ (airYawReset x s).evVel = s.evVel ∧ (airYawReset x s).evYaw = s.evYaw ∧ (airYawReset x s).gpsYaw = s.gpsYaw ∧ (airYawReset x s).magDist = s.magDist ∧ (airYawReset x s).fuseAspd = s.fuseAspd ∧ (airYawReset x s).magInhReq = s.magInhReq ∧ (airYawReset x s).inhibited = s.inhibited ∧ (airYawReset x s).nonMagPrev = s.nonMagPrev ∧ (airYawReset x s).yawObs = s.yawObs ∧ (airYawReset x s).biasObs = s.biasObs ∧ (airYawReset x s).tMov = s.tMov ∧ (airYawReset x s).tNotInh = s.tNotInh ∧ (airYawReset x s).tYaw = s.tYaw ∧ (airYawReset x s).gpsYawFaulty = s.gpsYawFaulty ∧ (airYawReset x s).doGsf = s.doGsf ∧ (airYawReset x s).gsfTime = s.gsfTime ∧ (airYawReset x s).gsfCount = s.gsfCount ∧ (airYawReset x s).tPos = s.tPos ∧ (airYawReset x s).tDelpos = s.tDelpos ∧ (airYawReset x s).tVel = s.tVel ∧ (airYawReset x s).tOf = s.tOf ∧ (airYawReset x s).tBeta = s.tBeta ∧ (airYawReset x s).tArsp = s.tArsp ∧ (airYawReset x s).tFake = s.tFake ∧ (airYawReset x s).tGpsYaw = s.tGpsYaw ∧ (airYawReset x s).hposPrev = s.hposPrev ∧ (airYawReset x s).hposOdom = s.hposOdom ∧ (airYawReset x s).synth = s.synth ∧ (airYawReset x s).flowReady = s.flowReady ∧ (airYawReset x s).flowInh = s.flowInh ∧ (airYawReset x s).tGood = s.tGood ∧ (airYawReset x s).tBad = s.tBad := by
  unfold airYawReset; (try dsimp only); split_ifs <;> simp [*]
@[simp] theorem airYawReset_tilt (x : In) (s : St) : (airYawReset x s).tilt = s.tilt := (airYawReset_frame x s).1
@[simp] theorem airYawReset_yawAlign (x : In) (s : St) : (airYawReset x s).yawAlign = s.yawAlign := (airYawReset_frame x s).2.1
@[simp] theorem airYawReset_gps (x : In) (s : St) : (airYawReset x s).gps = s.gps := (airYawReset_frame x s).2.2.1
@[simp] theorem airYawReset_optFlow (x : In) (s : St) : (airYawReset x s).optFlow = s.optFlow := (airYawReset_frame x s).2.2.2.1
@[simp] theorem airYawReset_magDec (x : In) (s : St) : (airYawReset x s).magDec = s.magDec := (airYawReset_frame x s).2.2.2.2.1
@[simp] theorem airYawReset_wind (x : In) (s : St) : (airYawReset x s).wind = s.wind := (airYawReset_frame x s).2.2.2.2.2.1
@[simp] theorem airYawReset_evPos (x : In) (s : St) : (airYawReset x s).evPos = s.evPos := (airYawReset_frame x s).2.2.2.2.2.2.1
@[simp] theorem airYawReset_evVel (x : In) (s : St) : (airYawReset x s).evVel = s.evVel := (airYawReset_frame x s).2.2.2.2.2.2.2.1
@[simp] theorem airYawReset_evYaw (x : In) (s : St) : (airYawReset x s).evYaw = s.evYaw := (airYawReset_frame x s).2.2.2.2.2.2.2.2.1
@[simp] theorem airYawReset_gpsYaw (x : In) (s : St) : (airYawReset x s).gpsYaw = s.gpsYaw := (airYawReset_frame x s).2.2.2.2.2.2.2.2.2.1
@[simp] theorem airYawReset_magDist (x : In) (s : St) : (airYawReset x s).magDist = s.magDist := (airYawReset_frame x s).2.2.2.2.2.2.2.2.2.2.1
@[simp] theorem airYawReset_fuseAspd (x : In) (s : St) : (airYawReset x s).fuseAspd = s.fuseAspd := (airYawReset_frame x s).2.2.2.2.2.2.2.2.2.2.2.1
@[simp] theorem airYawReset_magInhReq (x : In) (s : St) : (airYawReset x s).magInhReq = s.magInhReq := (airYawReset_frame x s).2.2.2.2.2.2.2.2.2.2.2.2.1
@[simp] theorem airYawReset_inhibited (x : In) (s : St) : (airYawReset x s).inhibited = s.inhibited := (airYawReset_frame x s).2.2.2.2.2.2.2.2.2.2.2.2.2.1
@[simp] theorem airYawReset_nonMagPrev (x : In) (s : St) : (airYawReset x s).nonMagPrev = s.nonMagPrev := (airYawReset_frame x s).2.2.2.2.2.2.2.2.2.2.2.2.2.2.1
@[simp] theorem airYawReset_yawObs (x : In) (s : St) : (airYawReset x s).yawObs = s.yawObs := (airYawReset_frame x s).2.2.2.2.2.2.2.2.2.2.2.2.2.2.2.1
@[simp] theorem airYawReset_biasObs (x : In) (s : St) : (airYawReset x s).biasObs = s.biasObs := (airYawReset_frame x s).2.2.2.2.2.2.2.2.2.2.2.2.2.2.2.2.1
@[simp] theorem airYawReset_tMov (x : In) (s : St) : (airYawReset x s).tMov = s.tMov := (airYawReset_frame x s).2.2.2.2.2.2.2.2.2.2.2.2.2.2.2.2.2.1
@[simp] theorem airYawReset_tNotInh (x : In) (s : St) : (airYawReset x s).tNotInh = s.tNotInh := (airYawReset_frame x s).2.2.2.2.2.2.2.2.2.2.2.2.2.2.2.2.2.2.1
@[simp] theorem airYawReset_tYaw (x : In) (s : St) : (airYawReset x s).tYaw = s.tYaw := (airYawReset_frame x s).2.2.2.2.2.2.2.2.2.2.2.2.2.2.2.2.2.2.2.1
@[simp] theorem airYawReset_gpsYawFaulty (x : In) (s : St) : (airYawReset x s).gpsYawFaulty = s.gpsYawFaulty := (airYawReset_frame x s).2.2.2.2.2.2.2.2.2.2.2.2.2.2.2.2.2.2.2.2.1
@[simp] theorem airYawReset_doGsf (x : In) (s : St) : (airYawReset x s).doGsf = s.doGsf := (airYawReset_frame x s).2.2.2.2.2.2.2.2.2.2.2.2.2.2.2.2.2.2.2.2.2.1
@[simp] theorem airYawReset_gsfTime (x : In) (s : St) : (airYawReset x s).gsfTime = s.gsfTime := (airYawReset_frame x s).2.2.2.2.2.2.2.2.2.2.2.2.2.2.2.2.2.2.2.2.2.2.1
@[simp] theorem airYawReset_gsfCount (x : In) (s : St) : (airYawReset x s).gsfCount = s.gsfCount := (airYawReset_frame x s).2.2.2.2.2.2.2.2.2.2.2.2.2.2.2.2.2.2.2.2.2.2.2.1
@[simp] theorem airYawReset_tPos (x : In) (s : St) : (airYawReset x s).tPos = s.tPos := (airYawReset_frame x s).2.2.2.2.2.2.2.2.2.2.2.2.2.2.2.2.2.2.2.2.2.2.2.2.1
@[simp] theorem airYawReset_tDelpos (x : In) (s : St) : (airYawReset x s).tDelpos = s.tDelpos := (airYawReset_frame x s).2.2.2.2.2.2.2.2.2.2.2.2.2.2.2.2.2.2.2.2.2.2.2.2.2.1
@[simp] theorem airYawReset_tVel (x : In) (s : St) : (airYawReset x s).tVel = s.tVel := (airYawReset_frame x s).2.2.2.2.2.2.2.2.2.2.2.2.2.2.2.2.2.2.2.2.2.2.2.2.2.2.1
@[simp] theorem airYawReset_tOf (x : In) (s : St) : (airYawReset x s).tOf = s.tOf := (airYawReset_frame x s).2.2.2.2.2.2.2.2.2.2.2.2.2.2.2.2.2.2.2.2.2.2.2.2.2.2.2.1
@[simp] theorem airYawReset_tBeta (x : In) (s : St) : (airYawReset x s).tBeta = s.tBeta := (airYawReset_frame x s).2.2.2.2.2.2.2.2.2.2.2.2.2.2.2.2.2.2.2.2.2.2.2.2.2.2.2.2.1
@[simp] theorem airYawReset_tArsp (x : In) (s : St) : (airYawReset x s).tArsp = s.tArsp := (airYawReset_frame x s).2.2.2.2.2.2.2.2.2.2.2.2.2.2.2.2.2.2.2.2.2.2.2.2.2.2.2.2.2.1
@[simp] theorem airYawReset_tFake (x : In) (s : St) : (airYawReset x s).tFake = s.tFake := (airYawReset_frame x s).2.2.2.2.2.2.2.2.2.2.2.2.2.2.2.2.2.2.2.2.2.2.2.2.2.2.2.2.2.2.1
@[simp] theorem airYawReset_tGpsYaw (x : In) (s : St) : (airYawReset x s).tGpsYaw = s.tGpsYaw := (airYawReset_frame x s).2.2.2.2.2.2.2.2.2.2.2.2.2.2.2.2.2.2.2.2.2.2.2.2.2.2.2.2.2.2.2.1
@[simp] theorem airYawReset_hposPrev (x : In) (s : St) : (airYawReset x s).hposPrev = s.hposPrev := (airYawReset_frame x s).2.2.2.2.2.2.2.2.2.2.2.2.2.2.2.2.2.2.2.2.2.2.2.2.2.2.2.2.2.2.2.2.1
@[simp] theorem airYawReset_hposOdom (x : In) (s : St) : (airYawReset x s).hposOdom = s.hposOdom := (airYawReset_frame x s).2.2.2.2.2.2.2.2.2.2.2.2.2.2.2.2.2.2.2.2.2.2.2.2.2.2.2.2.2.2.2.2.2.1
@[simp] theorem airYawReset_synth (x : In) (s : St) : (airYawReset x s).synth = s.synth := (airYawReset_frame x s).2.2.2.2.2.2.2.2.2.2.2.2.2.2.2.2.2.2.2.2.2.2.2.2.2.2.2.2.2.2.2.2.2.2.1
@[simp] theorem airYawReset_flowReady (x : In) (s : St) : (airYawReset x s).flowReady = s.flowReady := (airYawReset_frame x s).2.2.2.2.2.2.2.2.2.2.2.2.2.2.2.2.2.2.2.2.2.2.2.2.2.2.2.2.2.2.2.2.2.2.2.1
@[simp] theorem airYawReset_flowInh (x : In) (s : St) : (airYawReset x s).flowInh = s.flowInh := (airYawReset_frame x s).2.2.2.2.2.2.2.2.2.2.2.2.2.2.2.2.2.2.2.2.2.2.2.2.2.2.2.2.2.2.2.2.2.2.2.2.1
@[simp] theorem airYawReset_tGood (x : In) (s : St) : (airYawReset x s).tGood = s.tGood := (airYawReset_frame x s).2.2.2.2.2.2.2.2.2.2.2.2.2.2.2.2.2.2.2.2.2.2.2.2.2.2.2.2.2.2.2.2.2.2.2.2.2.1
@[simp] theorem airYawReset_tBad (x : In) (s : St) : (airYawReset x s).tBad = s.tBad := (airYawReset_frame x s).2.2.2.2.2.2.2.2.2.2.2.2.2.2.2.2.2.2.2.2.2.2.2.2.2.2.2.2.2.2.2.2.2.2.2.2.2.2

theorem velPosReset_frame (x : In) (s : St) :
    (velPosReset x s).tilt = s.tilt ∧ (velPosReset x s).yawAlign = s.yawAlign ∧ (velPosReset x s).gps = s.gps ∧ (velPosReset x s).optFlow = s.optFlow ∧ (velPosReset x s).magHdg = s.magHdg ∧ (velPosReset x s).mag3D = s.mag3D ∧ (velPosReset x s).magDec = s.magDec ∧ (velPosReset x s).wind = s.wind ∧ (velPosReset x s).evPos = s.evPos ∧ (velPosReset x s).evVel = s.evVel ∧ (velPosReset x s).evYaw = s.evYaw ∧ (velPosReset x s).gpsYaw = s.gpsYaw ∧ (velPosReset x s).magDist = s.magDist ∧ (velPosReset x s).magFault = s.magFault ∧ (velPosReset x s).fuseAspd = s.fuseAspd ∧ (velPosReset x s).magAligned = s.magAligned ∧ (velPosReset x s).magYawReq = s.magYawReq ∧ (velPosReset x s).magInhReq = s.magInhReq ∧ (velPosReset x s).inhibited = s.inhibited ∧ (velPosReset x s).nonMagPrev = s.nonMagPrev ∧ (velPosReset x s).yawObs = s.yawObs ∧ (velPosReset x s).biasObs = s.biasObs ∧ (velPosReset x s).nBad = s.nBad ∧ (velPosReset x s).declCovReset = s.declCovReset ∧ (velPosReset x s).tAlign = s.tAlign ∧ (velPosReset x s).tMov = s.tMov ∧ (velPosReset x s).tNotInh = s.tNotInh ∧ (velPosReset x s).tYaw = s.tYaw ∧ (velPosReset x s).gpsYawFaulty = s.gpsYawFaulty ∧ (velPosReset x s).doGsf = s.doGsf ∧ (velPosReset x s).gsfTime = s.gsfTime ∧ (velPosReset x s).gsfCount = s.gsfCount ∧ (velPosReset x s).tPos = s.tPos ∧ (velPosReset x s).tDelpos = s.tDelpos ∧ (velPosReset x s).tVel = s.tVel ∧ (velPosReset x s).tOf = s.tOf ∧ (velPosReset x s).tBeta = s.tBeta ∧ (velPosReset x s).tArsp = s.tArsp ∧ (velPosReset x s).tFake = s.tFake ∧ (velPosReset x s).tGpsYaw = s.tGpsYaw ∧ (velPosReset x s).hposOdom = s.hposOdom ∧ (velPosReset x s).synth = s.synth ∧ (velPosReset x s).flowReady = s.flowReady ∧ (velPosReset x s).flowInh = s.flowInh ∧ (velPosReset x s).tGood = s.tGood ∧ (velPosReset x s).tBad = s.tBad := by
  unfold velPosReset; (try dsimp only); split_ifs <;> simp [*]
@[simp] theorem velPosReset_tilt (x : In) (s : St) : (velPosReset x s).tilt = s.tilt := (velPosReset_frame x s).1
@[simp] theorem velPosReset_yawAlign (x : In) (s : St) : (velPosReset x s).yawAlign = s.yawAlign := (velPosReset_frame x s).2.1
@[simp] theorem velPosReset_gps (x : In) (s : St) : (velPosReset x s).gps = s.gps := (velPosReset_frame x s).2.2.1
@[simp] theorem velPosReset_optFlow (x : In) (s : St) : (velPosReset x s).optFlow = s.optFlow := (velPosReset_frame x s).2.2.2.1
@[simp] theorem velPosReset_magHdg (x : In) (s : St) : (velPosReset x s).magHdg = s.magHdg := (velPosReset_frame x s).2.2.2.2.1
@[simp] theorem velPosReset_mag3D (x : In) (s : St) : (velPosReset x s).mag3D = s.mag3D := (velPosReset_frame x s).2.2.2.2.2.1
@[simp] theorem velPosReset_magDec (x : In) (s : St) : (velPosReset x s).magDec = s.magDec := (velPosReset_frame x s).2.2.2.2.2.2.1
@[simp] theorem velPosReset_wind (x : In) (s : St) : (velPosReset x s).wind = s.wind := (velPosReset_frame x s).2.2.2.2.2.2.2.1
@[simp] theorem velPosReset_evPos (x : In) (s : St) : (velPosReset x s).evPos = s.evPos := (velPosReset_frame x s).2.2.2.2.2.2.2.2.1
@[simp] theorem velPosReset_evVel (x : In) (s : St) : (velPosReset x s).evVel = s.evVel := (velPosReset_frame x s).2.2.2.2.2.2.2.2.2.1
@[simp] theorem velPosReset_evYaw (x : In) (s : St) : (velPosReset x s).evYaw = s.evYaw := (velPosReset_frame x s).2.2.2.2.2.2.2.2.2.2.1
@[simp] theorem velPosReset_gpsYaw (x : In) (s : St) : (velPosReset x s).gpsYaw = s.gpsYaw := (velPosReset_frame x s).2.2.2.2.2.2.2.2.2.2.2.1
@[simp] theorem velPosReset_magDist (x : In) (s : St) : (velPosReset x s).magDist = s.magDist := (velPosReset_frame x s).2.2.2.2.2.2.2.2.2.2.2.2.1
@[simp] theorem velPosReset_magFault (x : In) (s : St) : (velPosReset x s).magFault = s.magFault := (velPosReset_frame x s).2.2.2.2.2.2.2.2.2.2.2.2.2.1
@[simp] theorem velPosReset_fuseAspd (x : In) (s : St) : (velPosReset x s).fuseAspd = s.fuseAspd := (velPosReset_frame x s).2.2.2.2.2.2.2.2.2.2.2.2.2.2.1
@[simp] theorem velPosReset_magAligned (x : In) (s : St) : (velPosReset x s).magAligned = s.magAligned := (velPosReset_frame x s).2.2.2.2.2.2.2.2.2.2.2.2.2.2.2.1
@[simp] theorem velPosReset_magYawReq (x : In) (s : St) : (velPosReset x s).magYawReq = s.magYawReq := (velPosReset_frame x s).2.2.2.2.2.2.2.2.2.2.2.2.2.2.2.2.1
@[simp] theorem velPosReset_magInhReq (x : In) (s : St) : (velPosReset x s).magInhReq = s.magInhReq := (velPosReset_frame x s).2.2.2.2.2.2.2.2.2.2.2.2.2.2.2.2.2.1
@[simp] theorem velPosReset_inhibited (x : In) (s : St) : (velPosReset x s).inhibited = s.inhibited := (velPosReset_frame x s).2.2.2.2.2.2.2.2.2.2.2.2.2.2.2.2.2.2.1
@[simp] theorem velPosReset_nonMagPrev (x : In) (s : St) : (velPosReset x s).nonMagPrev = s.nonMagPrev := (velPosReset_frame x s).2.2.2.2.2.2.2.2.2.2.2.2.2.2.2.2.2.2.2.1
@[simp] theorem velPosReset_yawObs (x : In) (s : St) : (velPosReset x s).yawObs = s.yawObs := (velPosReset_frame x s).2.2.2.2.2.2.2.2.2.2.2.2.2.2.2.2.2.2.2.2.1
@[simp] theorem velPosReset_biasObs (x : In) (s : St) : (velPosReset x s).biasObs = s.biasObs := (velPosReset_frame x s).2.2.2.2.2.2.2.2.2.2.2.2.2.2.2.2.2.2.2.2.2.1
@[simp] theorem velPosReset_nBad (x : In) (s : St) : (velPosReset x s).nBad = s.nBad := (velPosReset_frame x s).2.2.2.2.2.2.2.2.2.2.2.2.2.2.2.2.2.2.2.2.2.2.1
@[simp] theorem velPosReset_declCovReset (x : In) (s : St) : (velPosReset x s).declCovReset = s.declCovReset := (velPosReset_frame x s).2.2.2.2.2.2.2.2.2.2.2.2.2.2.2.2.2.2.2.2.2.2.2.1
@[simp] theorem velPosReset_tAlign (x : In) (s : St) : (velPosReset x s).tAlign = s.tAlign := (velPosReset_frame x s).2.2.2.2.2.2.2.2.2.2.2.2.2.2.2.2.2.2.2.2.2.2.2.2.1
@[simp] theorem velPosReset_tMov (x : In) (s : St) : (velPosReset x s).tMov = s.tMov := (velPosReset_frame x s).2.2.2.2.2.2.2.2.2.2.2.2.2.2.2.2.2.2.2.2.2.2.2.2.2.1
@[simp] theorem velPosReset_tNotInh (x : In) (s : St) : (velPosReset x s).tNotInh = s.tNotInh := (velPosReset_frame x s).2.2.2.2.2.2.2.2.2.2.2.2.2.2.2.2.2.2.2.2.2.2.2.2.2.2.1
@[simp] theorem velPosReset_tYaw (x : In) (s : St) : (velPosReset x s).tYaw = s.tYaw := (velPosReset_frame x s).2.2.2.2.2.2.2.2.2.2.2.2.2.2.2.2.2.2.2.2.2.2.2.2.2.2.2.1
@[simp] theorem velPosReset_gpsYawFaulty (x : In) (s : St) : (velPosReset x s).gpsYawFaulty = s.gpsYawFaulty := (velPosReset_frame x s).2.2.2.2.2.2.2.2.2.2.2.2.2.2.2.2.2.2.2.2.2.2.2.2.2.2.2.2.1
@[simp] theorem velPosReset_doGsf (x : In) (s : St) : (velPosReset x s).doGsf = s.doGsf := (velPosReset_frame x s).2.2.2.2.2.2.2.2.2.2.2.2.2.2.2.2.2.2.2.2.2.2.2.2.2.2.2.2.2.1
@[simp] theorem velPosReset_gsfTime (x : In) (s : St) : (velPosReset x s).gsfTime = s.gsfTime := (velPosReset_frame x s).2.2.2.2.2.2.2.2.2.2.2.2.2.2.2.2.2.2.2.2.2.2.2.2.2.2.2.2.2.2.1
@[simp] theorem velPosReset_gsfCount (x : In) (s : St) : (velPosReset x s).gsfCount = s.gsfCount := (velPosReset_frame x s).2.2.2.2.2.2.2.2.2.2.2.2.2.2.2.2.2.2.2.2.2.2.2.2.2.2.2.2.2.2.2.1
@[simp] theorem velPosReset_tPos (x : In) (s : St) : (velPosReset x s).tPos = s.tPos := (velPosReset_frame x s).2.2.2.2.2.2.2.2.2.2.2.2.2.2.2.2.2.2.2.2.2.2.2.2.2.2.2.2.2.2.2.2.1
@[simp] theorem velPosReset_tDelpos (x : In) (s : St) : (velPosReset x s).tDelpos = s.tDelpos := (velPosReset_frame x s).2.2.2.2.2.2.2.2.2.2.2.2.2.2.2.2.2.2.2.2.2.2.2.2.2.2.2.2.2.2.2.2.2.1
@[simp] theorem velPosReset_tVel (x : In) (s : St) : (velPosReset x s).tVel = s.tVel := (velPosReset_frame x s).2.2.2.2.2.2.2.2.2.2.2.2.2.2.2.2.2.2.2.2.2.2.2.2.2.2.2.2.2.2.2.2.2.2.1
@[simp] theorem velPosReset_tOf (x : In) (s : St) : (velPosReset x s).tOf = s.tOf := (velPosReset_frame x s).2.2.2.2.2.2.2.2.2.2.2.2.2.2.2.2.2.2.2.2.2.2.2.2.2.2.2.2.2.2.2.2.2.2.2.1
@[simp] theorem velPosReset_tBeta (x : In) (s : St) : (velPosReset x s).tBeta = s.tBeta := (velPosReset_frame x s).2.2.2.2.2.2.2.2.2.2.2.2.2.2.2.2.2.2.2.2.2.2.2.2.2.2.2.2.2.2.2.2.2.2.2.2.1
@[simp] theorem velPosReset_tArsp (x : In) (s : St) : (velPosReset x s).tArsp = s.tArsp := (velPosReset_frame x s).2.2.2.2.2.2.2.2.2.2.2.2.2.2.2.2.2.2.2.2.2.2.2.2.2.2.2.2.2.2.2.2.2.2.2.2.2.1
@[simp] theorem velPosReset_tFake (x : In) (s : St) : (velPosReset x s).tFake = s.tFake := (velPosReset_frame x s).2.2.2.2.2.2.2.2.2.2.2.2.2.2.2.2.2.2.2.2.2.2.2.2.2.2.2.2.2.2.2.2.2.2.2.2.2.2.1
@[simp] theorem velPosReset_tGpsYaw (x : In) (s : St) : (velPosReset x s).tGpsYaw = s.tGpsYaw := (velPosReset_frame x s).2.2.2.2.2.2.2.2.2.2.2.2.2.2.2.2.2.2.2.2.2.2.2.2.2.2.2.2.2.2.2.2.2.2.2.2.2.2.2.1
@[simp] theorem velPosReset_hposOdom (x : In) (s : St) : (velPosReset x s).hposOdom = s.hposOdom := (velPosReset_frame x s).2.2.2.2.2.2.2.2.2.2.2.2.2.2.2.2.2.2.2.2.2.2.2.2.2.2.2.2.2.2.2.2.2.2.2.2.2.2.2.2.1
@[simp] theorem velPosReset_synth (x : In) (s : St) : (velPosReset x s).synth = s.synth := (velPosReset_frame x s).2.2.2.2.2.2.2.2.2.2.2.2.2.2.2.2.2.2.2.2.2.2.2.2.2.2.2.2.2.2.2.2.2.2.2.2.2.2.2.2.2.1
@[simp] theorem velPosReset_flowReady (x : In) (s : St) : (velPosReset x s).flowReady = s.flowReady := (velPosReset_frame x s).2.2.2.2.2.2.2.2.2.2.2.2.2.2.2.2.2.2.2.2.2.2.2.2.2.2.2.2.2.2.2.2.2.2.2.2.2.2.2.2.2.2.1
@[simp] theorem velPosReset_flowInh (x : In) (s : St) : (velPosReset x s).flowInh = s.flowInh := (velPosReset_frame x s).2.2.2.2.2.2.2.2.2.2.2.2.2.2.2.2.2.2.2.2.2.2.2.2.2.2.2.2.2.2.2.2.2.2.2.2.2.2.2.2.2.2.2.1
@[simp] theorem velPosReset_tGood (x : In) (s : St) : (velPosReset x s).tGood = s.tGood := (velPosReset_frame x s).2.2.2.2.2.2.2.2.2.2.2.2.2.2.2.2.2.2.2.2.2.2.2.2.2.2.2.2.2.2.2.2.2.2.2.2.2.2.2.2.2.2.2.2.1
@[simp] theorem velPosReset_tBad (x : In) (s : St) : (velPosReset x s).tBad = s.tBad := (velPosReset_frame x s).2.2.2.2.2.2.2.2.2.2.2.2.2.2.2.2.2.2.2.2.2.2.2.2.2.2.2.2.2.2.2.2.2.2.2.2.2.2.2.2.2.2.2.2.2

theorem check3D_frame (x : In) (s : St) :
    (check3D x s).tilt = s.tilt ∧ (check3D x s).yawAlign = s.yawAlign ∧ (check3D x s).gps = s.gps ∧ (check3D x s).optFlow = s.optFlow ∧ (check3D x s).magHdg = s.magHdg ∧ (check3D x s).mag3D = s.mag3D ∧ (check3D x s).magDec = s.magDec ∧ (check3D x s).wind = s.wind ∧ (check3D x s).evPos = s.evPos ∧ (check3D x s).evVel = s.evVel ∧ (check3D x s).evYaw = s.evYaw ∧ (check3D x s).gpsYaw = s.gpsYaw ∧ (check3D x s).magDist = s.magDist ∧ (check3D x s).magFault = s.magFault ∧ (check3D x s).fuseAspd = s.fuseAspd ∧ (check3D x s).magAligned = s.magAligned ∧ (check3D x s).magYawReq = s.magYawReq ∧ (check3D x s).magInhReq = s.magInhReq ∧ (check3D x s).velposReq = s.velposReq ∧ (check3D x s).inhibited = s.inhibited ∧ (check3D x s).nonMagPrev = s.nonMagPrev ∧ (check3D x s).nBad = s.nBad ∧ (check3D x s).declCovReset = s.declCovReset ∧ (check3D x s).tAlign = s.tAlign ∧ (check3D x s).tNotInh = s.tNotInh ∧ (check3D x s).gpsYawFaulty = s.gpsYawFaulty ∧ (check3D x s).doGsf = s.doGsf ∧ (check3D x s).gsfTime = s.gsfTime ∧ (check3D x s).gsfCount = s.gsfCount ∧ (check3D x s).tPos = s.tPos ∧ (check3D x s).tDelpos = s.tDelpos ∧ (check3D x s).tVel = s.tVel ∧ (check3D x s).tOf = s.tOf ∧ (check3D x s).tBeta = s.tBeta ∧ (check3D x s).tArsp = s.tArsp ∧ (check3D x s).tFake = s.tFake ∧ (check3D x s).tGpsYaw = s.tGpsYaw ∧ (check3D x s).hposPrev = s.hposPrev ∧ (check3D x s).hposOdom = s.hposOdom ∧ (check3D x s).synth = s.synth ∧ (check3D x s).flowReady = s.flowReady ∧ (check3D x s).flowInh = s.flowInh ∧ (check3D x s).tGood = s.tGood ∧ (check3D x s).tBad = s.tBad := by
  unfold check3D; (try dsimp only); split_ifs <;> simp [*]
@[simp] theorem check3D_tilt (x : In) (s : St) : (check3D x s).tilt = s.tilt := (check3D_frame x s).1
@[simp] theorem check3D_yawAlign (x : In) (s : St) : (check3D x s).yawAlign = s.yawAlign := (check3D_frame x s).2.1
@[simp] theorem check3D_gps (x : In) (s : St) : (check3D x s).gps = s.gps := (check3D_frame x s).2.2.1
@[simp] theorem check3D_optFlow (x : In) (s : St) : (check3D x s).optFlow = s.optFlow := (check3D_frame x s).2.2.2.1
@[simp] theorem check3D_magHdg (x : In) (s : St) : (check3D x s).magHdg = s.magHdg := (check3D_frame x s).2.2.2.2.1
@[simp] theorem check3D_mag3D (x : In) (s : St) : (check3D x s).mag3D = s.mag3D := (check3D_frame x s).2.2.2.2.2.1
@[simp] theorem check3D_magDec (x : In) (s : St) : (check3D x s).magDec = s.magDec := (check3D_frame x s).2.2.2.2.2.2.1
@[simp] theorem check3D_wind (x : In) (s : St) : (check3D x s).wind = s.wind := (check3D_frame x s).2.2.2.2.2.2.2.1
@[simp] theorem check3D_evPos (x : In) (s : St) : (check3D x s).evPos = s.evPos := (check3D_frame x s).2.2.2.2.2.2.2.2.1
@[simp] theorem check3D_evVel (x : In) (s : St) : (check3D x s).evVel = s.evVel := (check3D_frame x s).2.2.2.2.2.2.2.2.2.1
@[simp] theorem check3D_evYaw (x : In) (s : St) : (check3D x s).evYaw = s.evYaw := (check3D_frame x s).2.2.2.2.2.2.2.2.2.2.1
@[simp] theorem check3D_gpsYaw (x : In) (s : St) : (check3D x s).gpsYaw = s.gpsYaw := (check3D_frame x s).2.2.2.2.2.2.2.2.2.2.2.1
@[simp] theorem check3D_magDist (x : In) (s : St) : (check3D x s).magDist = s.magDist := (check3D_frame x s).2.2.2.2.2.2.2.2.2.2.2.2.1
@[simp] theorem check3D_magFault (x : In) (s : St) : (check3D x s).magFault = s.magFault := (check3D_frame x s).2.2.2.2.2.2.2.2.2.2.2.2.2.1
@[simp] theorem check3D_fuseAspd (x : In) (s : St) : (check3D x s).fuseAspd = s.fuseAspd := (check3D_frame x s).2.2.2.2.2.2.2.2.2.2.2.2.2.2.1
@[simp] theorem check3D_magAligned (x : In) (s : St) : (check3D x s).magAligned = s.magAligned := (check3D_frame x s).2.2.2.2.2.2.2.2.2.2.2.2.2.2.2.1
@[simp] theorem check3D_magYawReq (x : In) (s : St) : (check3D x s).magYawReq = s.magYawReq := (check3D_frame x s).2.2.2.2.2.2.2.2.2.2.2.2.2.2.2.2.1
@[simp] theorem check3D_magInhReq (x : In) (s : St) : (check3D x s).magInhReq = s.magInhReq := (check3D_frame x s).2.2.2.2.2.2.2.2.2.2.2.2.2.2.2.2.2.1
@[simp] theorem check3D_velposReq (x : In) (s : St) : (check3D x s).velposReq = s.velposReq := (check3D_frame x s).2.2.2.2.2.2.2.2.2.2.2.2.2.2.2.2.2.2.1
@[simp] theorem check3D_inhibited (x : In) (s : St) : (check3D x s).inhibited = s.inhibited := (check3D_frame x s).2.2.2.2.2.2.2.2.2.2.2.2.2.2.2.2.2.2.2.1
@[simp] theorem check3D_nonMagPrev (x : In) (s : St) : (check3D x s).nonMagPrev = s.nonMagPrev := (check3D_frame x s).2.2.2.2.2.2.2.2.2.2.2.2.2.2.2.2.2.2.2.2.1
@[simp] theorem check3D_nBad (x : In) (s : St) : (check3D x s).nBad = s.nBad := (check3D_frame x s).2.2.2.2.2.2.2.2.2.2.2.2.2.2.2.2.2.2.2.2.2.1
@[simp] theorem check3D_declCovReset (x : In) (s : St) : (check3D x s).declCovReset = s.declCovReset := (check3D_frame x s).2.2.2.2.2.2.2.2.2.2.2.2.2.2.2.2.2.2.2.2.2.2.1
@[simp] theorem check3D_tAlign (x : In) (s : St) : (check3D x s).tAlign = s.tAlign := (check3D_frame x s).2.2.2.2.2.2.2.2.2.2.2.2.2.2.2.2.2.2.2.2.2.2.2.1
@[simp] theorem check3D_tNotInh (x : In) (s : St) : (check3D x s).tNotInh = s.tNotInh := (check3D_frame x s).2.2.2.2.2.2.2.2.2.2.2.2.2.2.2.2.2.2.2.2.2.2.2.2.1
@[simp] theorem check3D_gpsYawFaulty (x : In) (s : St) : (check3D x s).gpsYawFaulty = s.gpsYawFaulty := (check3D_frame x s).2.2.2.2.2.2.2.2.2.2.2.2.2.2.2.2.2.2.2.2.2.2.2.2.2.1
@[simp] theorem check3D_doGsf (x : In) (s : St) : (check3D x s).doGsf = s.doGsf := (check3D_frame x s).2.2.2.2.2.2.2.2.2.2.2.2.2.2.2.2.2.2.2.2.2.2.2.2.2.2.1
@[simp] theorem check3D_gsfTime (x : In) (s : St) : (check3D x s).gsfTime = s.gsfTime := (check3D_frame x s).2.2.2.2.2.2.2.2.2.2.2.2.2.2.2.2.2.2.2.2.2.2.2.2.2.2.2.1
@[simp] theorem check3D_gsfCount (x : In) (s : St) : (check3D x s).gsfCount = s.gsfCount := (check3D_frame x s).2.2.2.2.2.2.2.2.2.2.2.2.2.2.2.2.2.2.2.2.2.2.2.2.2.2.2.2.1
@[simp] theorem check3D_tPos (x : In) (s : St) : (check3D x s).tPos = s.tPos := (check3D_frame x s).2.2.2.2.2.2.2.2.2.2.2.2.2.2.2.2.2.2.2.2.2.2.2.2.2.2.2.2.2.1
@[simp] theorem check3D_tDelpos (x : In) (s : St) : (check3D x s).tDelpos = s.tDelpos := (check3D_frame x s).2.2.2.2.2.2.2.2.2.2.2.2.2.2.2.2.2.2.2.2.2.2.2.2.2.2.2.2.2.2.1
@[simp] theorem check3D_tVel (x : In) (s : St) : (check3D x s).tVel = s.tVel := (check3D_frame x s).2.2.2.2.2.2.2.2.2.2.2.2.2.2.2.2.2.2.2.2.2.2.2.2.2.2.2.2.2.2.2.1
@[simp] theorem check3D_tOf (x : In) (s : St) : (check3D x s).tOf = s.tOf := (check3D_frame x s).2.2.2.2.2.2.2.2.2.2.2.2.2.2.2.2.2.2.2.2.2.2.2.2.2.2.2.2.2.2.2.2.1
@[simp] theorem check3D_tBeta (x : In) (s : St) : (check3D x s).tBeta = s.tBeta := (check3D_frame x s).2.2.2.2.2.2.2.2.2.2.2.2.2.2.2.2.2.2.2.2.2.2.2.2.2.2.2.2.2.2.2.2.2.1
@[simp] theorem check3D_tArsp (x : In) (s : St) : (check3D x s).tArsp = s.tArsp := (check3D_frame x s).2.2.2.2.2.2.2.2.2.2.2.2.2.2.2.2.2.2.2.2.2.2.2.2.2.2.2.2.2.2.2.2.2.2.1
@[simp] theorem check3D_tFake (x : In) (s : St) : (check3D x s).tFake = s.tFake := (check3D_frame x s).2.2.2.2.2.2.2.2.2.2.2.2.2.2.2.2.2.2.2.2.2.2.2.2.2.2.2.2.2.2.2.2.2.2.2.1
@[simp] theorem check3D_tGpsYaw (x : In) (s : St) : (check3D x s).tGpsYaw = s.tGpsYaw := (check3D_frame x s).2.2.2.2.2.2.2.2.2.2.2.2.2.2.2.2.2.2.2.2.2.2.2.2.2.2.2.2.2.2.2.2.2.2.2.2.1
@[simp] theorem check3D_hposPrev (x : In) (s : St) : (check3D x s).hposPrev = s.hposPrev := (check3D_frame x s).2.2.2.2.2.2.2.2.2.2.2.2.2.2.2.2.2.2.2.2.2.2.2.2.2.2.2.2.2.2.2.2.2.2.2.2.2.1
@[simp] theorem check3D_hposOdom (x : In) (s : St) : (check3D x s).hposOdom = s.hposOdom := (check3D_frame x s).2.2.2.2.2.2.2.2.2.2.2.2.2.2.2.2.2.2.2.2.2.2.2.2.2.2.2.2.2.2.2.2.2.2.2.2.2.2.1
@[simp] theorem check3D_synth (x : In) (s : St) : (check3D x s).synth = s.synth := (check3D_frame x s).2.2.2.2.2.2.2.2.2.2.2.2.2.2.2.2.2.2.2.2.2.2.2.2.2.2.2.2.2.2.2.2.2.2.2.2.2.2.2.1
@[simp] theorem check3D_flowReady (x : In) (s : St) : (check3D x s).flowReady = s.flowReady := (check3D_frame x s).2.2.2.2.2.2.2.2.2.2.2.2.2.2.2.2.2.2.2.2.2.2.2.2.2.2.2.2.2.2.2.2.2.2.2.2.2.2.2.2.1
@[simp] theorem check3D_flowInh (x : In) (s : St) : (check3D x s).flowInh = s.flowInh := (check3D_frame x s).2.2.2.2.2.2.2.2.2.2.2.2.2.2.2.2.2.2.2.2.2.2.2.2.2.2.2.2.2.2.2.2.2.2.2.2.2.2.2.2.2.1
@[simp] theorem check3D_tGood (x : In) (s : St) : (check3D x s).tGood = s.tGood := (check3D_frame x s).2.2.2.2.2.2.2.2.2.2.2.2.2.2.2.2.2.2.2.2.2.2.2.2.2.2.2.2.2.2.2.2.2.2.2.2.2.2.2.2.2.2.1
@[simp] theorem check3D_tBad (x : In) (s : St) : (check3D x s).tBad = s.tBad := (check3D_frame x s).2.2.2.2.2.2.2.2.2.2.2.2.2.2.2.2.2.2.2.2.2.2.2.2.2.2.2.2.2.2.2.2.2.2.2.2.2.2.2.2.2.2.2

theorem selectMagAuto_frame (x : In) (s : St) :
    (selectMagAuto x s).tilt = s.tilt ∧ (selectMagAuto x s).yawAlign = s.yawAlign ∧ (selectMagAuto x s).gps = s.gps ∧ (selectMagAuto x s).optFlow = s.optFlow ∧ (selectMagAuto x s).magDec = s.magDec ∧ (selectMagAuto x s).wind = s.wind ∧ (selectMagAuto x s).evPos = s.evPos ∧ (selectMagAuto x s).evVel = s.evVel ∧ (selectMagAuto x s).evYaw = s.evYaw ∧ (selectMagAuto x s).gpsYaw = s.gpsYaw ∧ (selectMagAuto x s).magDist = s.magDist ∧ (selectMagAuto x s).magFault = s.magFault ∧ (selectMagAuto x s).fuseAspd = s.fuseAspd ∧ (selectMagAuto x s).magAligned = s.magAligned ∧ (selectMagAuto x s).magYawReq = s.magYawReq ∧ (selectMagAuto x s).magInhReq = s.magInhReq ∧ (selectMagAuto x s).velposReq = s.velposReq ∧ (selectMagAuto x s).inhibited = s.inhibited ∧ (selectMagAuto x s).nonMagPrev = s.nonMagPrev ∧ (selectMagAuto x s).nBad = s.nBad ∧ (selectMagAuto x s).declCovReset = s.declCovReset ∧ (selectMagAuto x s).tAlign = s.tAlign ∧ (selectMagAuto x s).tNotInh = s.tNotInh ∧ (selectMagAuto x s).gpsYawFaulty = s.gpsYawFaulty ∧ (selectMagAuto x s).doGsf = s.doGsf ∧ (selectMagAuto x s).gsfTime = s.gsfTime ∧ (selectMagAuto x s).gsfCount = s.gsfCount ∧ (selectMagAuto x s).tPos = s.tPos ∧ (selectMagAuto x s).tDelpos = s.tDelpos ∧ (selectMagAuto x s).tVel = s.tVel ∧ (selectMagAuto x s).tOf = s.tOf ∧ (selectMagAuto x s).tBeta = s.tBeta ∧ (selectMagAuto x s).tArsp = s.tArsp ∧ (selectMagAuto x s).tFake = s.tFake ∧ (selectMagAuto x s).tGpsYaw = s.tGpsYaw ∧ (selectMagAuto x s).hposPrev = s.hposPrev ∧ (selectMagAuto x s).hposOdom = s.hposOdom ∧ (selectMagAuto x s).synth = s.synth ∧ (selectMagAuto x s).flowReady = s.flowReady ∧ (selectMagAuto x s).flowInh = s.flowInh ∧ (selectMagAuto x s).tGood = s.tGood ∧ (selectMagAuto x s).tBad = s.tBad := by
  unfold selectMagAuto; (try dsimp only); split_ifs <;> simp [*]
@[simp] theorem selectMagAuto_tilt (x : In) (s : St) : (selectMagAuto x s).tilt = s.tilt := (selectMagAuto_frame x s).1
@[simp] theorem selectMagAuto_yawAlign (x : In) (s : St) : (selectMagAuto x s).yawAlign = s.yawAlign := (selectMagAuto_frame x s).2.1
@[simp] theorem selectMagAuto_gps (x : In) (s : St) : (selectMagAuto x s).gps = s.gps := (selectMagAuto_frame x s).2.2.1
@[simp] theorem selectMagAuto_optFlow (x : In) (s : St) : (selectMagAuto x s).optFlow = s.optFlow := (selectMagAuto_frame x s).2.2.2.1
@[simp] theorem selectMagAuto_magDec (x : In) (s : St) : (selectMagAuto x s).magDec = s.magDec := (selectMagAuto_frame x s).2.2.2.2.1
@[simp] theorem selectMagAuto_wind (x : In) (s : St) : (selectMagAuto x s).wind = s.wind := (selectMagAuto_frame x s).2.2.2.2.2.1
@[simp] theorem selectMagAuto_evPos (x : In) (s : St) : (selectMagAuto x s).evPos = s.evPos := (selectMagAuto_frame x s).2.2.2.2.2.2.1
@[simp] theorem selectMagAuto_evVel (x : In) (s : St) : (selectMagAuto x s).evVel = s.evVel := (selectMagAuto_frame x s).2.2.2.2.2.2.2.1
@[simp] theorem selectMagAuto_evYaw (x : In) (s : St) : (selectMagAuto x s).evYaw = s.evYaw := (selectMagAuto_frame x s).2.2.2.2.2.2.2.2.1
@[simp] theorem selectMagAuto_gpsYaw (x : In) (s : St) : (selectMagAuto x s).gpsYaw = s.gpsYaw := (selectMagAuto_frame x s).2.2.2.2.2.2.2.2.2.1
@[simp] theorem selectMagAuto_magDist (x : In) (s : St) : (selectMagAuto x s).magDist = s.magDist := (selectMagAuto_frame x s).2.2.2.2.2.2.2.2.2.2.1
@[simp] theorem selectMagAuto_magFault (x : In) (s : St) : (selectMagAuto x s).magFault = s.magFault := (selectMagAuto_frame x s).2.2.2.2.2.2.2.2.2.2.2.1
@[simp] theorem selectMagAuto_fuseAspd (x : In) (s : St) : (selectMagAuto x s).fuseAspd = s.fuseAspd := (selectMagAuto_frame x s).2.2.2.2.2.2.2.2.2.2.2.2.1
@[simp] theorem selectMagAuto_magAligned (x : In) (s : St) : (selectMagAuto x s).magAligned = s.magAligned := (selectMagAuto_frame x s).2.2.2.2.2.2.2.2.2.2.2.2.2.1
@[simp] theorem selectMagAuto_magYawReq (x : In) (s : St) : (selectMagAuto x s).magYawReq = s.magYawReq := (selectMagAuto_frame x s).2.2.2.2.2.2.2.2.2.2.2.2.2.2.1
@[simp] theorem selectMagAuto_magInhReq (x : In) (s : St) : (selectMagAuto x s).magInhReq = s.magInhReq := (selectMagAuto_frame x s).2.2.2.2.2.2.2.2.2.2.2.2.2.2.2.1
@[simp] theorem selectMagAuto_velposReq (x : In) (s : St) : (selectMagAuto x s).velposReq = s.velposReq := (selectMagAuto_frame x s).2.2.2.2.2.2.2.2.2.2.2.2.2.2.2.2.1
@[simp] theorem selectMagAuto_inhibited (x : In) (s : St) : (selectMagAuto x s).inhibited = s.inhibited := (selectMagAuto_frame x s).2.2.2.2.2.2.2.2.2.2.2.2.2.2.2.2.2.1
@[simp] theorem selectMagAuto_nonMagPrev (x : In) (s : St) : (selectMagAuto x s).nonMagPrev = s.nonMagPrev := (selectMagAuto_frame x s).2.2.2.2.2.2.2.2.2.2.2.2.2.2.2.2.2.2.1
@[simp] theorem selectMagAuto_nBad (x : In) (s : St) : (selectMagAuto x s).nBad = s.nBad := (selectMagAuto_frame x s).2.2.2.2.2.2.2.2.2.2.2.2.2.2.2.2.2.2.2.1
@[simp] theorem selectMagAuto_declCovReset (x : In) (s : St) : (selectMagAuto x s).declCovReset = s.declCovReset := (selectMagAuto_frame x s).2.2.2.2.2.2.2.2.2.2.2.2.2.2.2.2.2.2.2.2.1
@[simp] theorem selectMagAuto_tAlign (x : In) (s : St) : (selectMagAuto x s).tAlign = s.tAlign := (selectMagAuto_frame x s).2.2.2.2.2.2.2.2.2.2.2.2.2.2.2.2.2.2.2.2.2.1
@[simp] theorem selectMagAuto_tNotInh (x : In) (s : St) : (selectMagAuto x s).tNotInh = s.tNotInh := (selectMagAuto_frame x s).2.2.2.2.2.2.2.2.2.2.2.2.2.2.2.2.2.2.2.2.2.2.1
@[simp] theorem selectMagAuto_gpsYawFaulty (x : In) (s : St) : (selectMagAuto x s).gpsYawFaulty = s.gpsYawFaulty := (selectMagAuto_frame x s).2.2.2.2.2.2.2.2.2.2.2.2.2.2.2.2.2.2.2.2.2.2.2.1
@[simp] theorem selectMagAuto_doGsf (x : In) (s : St) : (selectMagAuto x s).doGsf = s.doGsf := (selectMagAuto_frame x s).2.2.2.2.2.2.2.2.2.2.2.2.2.2.2.2.2.2.2.2.2.2.2.2.1
@[simp] theorem selectMagAuto_gsfTime (x : In) (s : St) : (selectMagAuto x s).gsfTime = s.gsfTime := (selectMagAuto_frame x s).2.2.2.2.2.2.2.2.2.2.2.2.2.2.2.2.2.2.2.2.2.2.2.2.2.1
@[simp] theorem selectMagAuto_gsfCount (x : In) (s : St) : (selectMagAuto x s).gsfCount = s.gsfCount := (selectMagAuto_frame x s).2.2.2.2.2.2.2.2.2.2.2.2.2.2.2.2.2.2.2.2.2.2.2.2.2.2.1
@[simp] theorem selectMagAuto_tPos (x : In) (s : St) : (selectMagAuto x s).tPos = s.tPos := (selectMagAuto_frame x s).2.2.2.2.2.2.2.2.2.2.2.2.2.2.2.2.2.2.2.2.2.2.2.2.2.2.2.1
@[simp] theorem selectMagAuto_tDelpos (x : In) (s : St) : (selectMagAuto x s).tDelpos = s.tDelpos := (selectMagAuto_frame x s).2.2.2.2.2.2.2.2.2.2.2.2.2.2.2.2.2.2.2.2.2.2.2.2.2.2.2.2.1
@[simp] theorem selectMagAuto_tVel (x : In) (s : St) : (selectMagAuto x s).tVel = s.tVel := (selectMagAuto_frame x s).2.2.2.2.2.2.2.2.2.2.2.2.2.2.2.2.2.2.2.2.2.2.2.2.2.2.2.2.2.1
@[simp] theorem selectMagAuto_tOf (x : In) (s : St) : (selectMagAuto x s).tOf = s.tOf := (selectMagAuto_frame x s).2.2.2.2.2.2.2.2.2.2.2.2.2.2.2.2.2.2.2.2.2.2.2.2.2.2.2.2.2.2.1
@[simp] theorem selectMagAuto_tBeta (x : In) (s : St) : (selectMagAuto x s).tBeta = s.tBeta := (selectMagAuto_frame x s).2.2.2.2.2.2.2.2.2.2.2.2.2.2.2.2.2.2.2.2.2.2.2.2.2.2.2.2.2.2.2.1
@[simp] theorem selectMagAuto_tArsp (x : In) (s : St) : (selectMagAuto x s).tArsp = s.tArsp := (selectMagAuto_frame x s).2.2.2.2.2.2.2.2.2.2.2.2.2.2.2.2.2.2.2.2.2.2.2.2.2.2.2.2.2.2.2.2.1
@[simp] theorem selectMagAuto_tFake (x : In) (s : St) : (selectMagAuto x s).tFake = s.tFake := (selectMagAuto_frame x s).2.2.2.2.2.2.2.2.2.2.2.2.2.2.2.2.2.2.2.2.2.2.2.2.2.2.2.2.2.2.2.2.2.1
@[simp] theorem selectMagAuto_tGpsYaw (x : In) (s : St) : (selectMagAuto x s).tGpsYaw = s.tGpsYaw := (selectMagAuto_frame x s).2.2.2.2.2.2.2.2.2.2.2.2.2.2.2.2.2.2.2.2.2.2.2.2.2.2.2.2.2.2.2.2.2.2.1
@[simp] theorem selectMagAuto_hposPrev (x : In) (s : St) : (selectMagAuto x s).hposPrev = s.hposPrev := (selectMagAuto_frame x s).2.2.2.2.2.2.2.2.2.2.2.2.2.2.2.2.2.2.2.2.2.2.2.2.2.2.2.2.2.2.2.2.2.2.2.1
@[simp] theorem selectMagAuto_hposOdom (x : In) (s : St) : (selectMagAuto x s).hposOdom = s.hposOdom := (selectMagAuto_frame x s).2.2.2.2.2.2.2.2.2.2.2.2.2.2.2.2.2.2.2.2.2.2.2.2.2.2.2.2.2.2.2.2.2.2.2.2.1
@[simp] theorem selectMagAuto_synth (x : In) (s : St) : (selectMagAuto x s).synth = s.synth := (selectMagAuto_frame x s).2.2.2.2.2.2.2.2.2.2.2.2.2.2.2.2.2.2.2.2.2.2.2.2.2.2.2.2.2.2.2.2.2.2.2.2.2.1
@[simp] theorem selectMagAuto_flowReady (x : In) (s : St) : (selectMagAuto x s).flowReady = s.flowReady := (selectMagAuto_frame x s).2.2.2.2.2.2.2.2.2.2.2.2.2.2.2.2.2.2.2.2.2.2.2.2.2.2.2.2.2.2.2.2.2.2.2.2.2.2.1
@[simp] theorem selectMagAuto_flowInh (x : In) (s : St) : (selectMagAuto x s).flowInh = s.flowInh := (selectMagAuto_frame x s).2.2.2.2.2.2.2.2.2.2.2.2.2.2.2.2.2.2.2.2.2.2.2.2.2.2.2.2.2.2.2.2.2.2.2.2.2.2.2.1
@[simp] theorem selectMagAuto_tGood (x : In) (s : St) : (selectMagAuto x s).tGood = s.tGood := (selectMagAuto_frame x s).2.2.2.2.2.2.2.2.2.2.2.2.2.2.2.2.2.2.2.2.2.2.2.2.2.2.2.2.2.2.2.2.2.2.2.2.2.2.2.2.1
@[simp] theorem selectMagAuto_tBad (x : In) (s : St) : (selectMagAuto x s).tBad = s.tBad := (selectMagAuto_frame x s).2.2.2.2.2.2.2.2.2.2.2.2.2.2.2.2.2.2.2.2.2.2.2.2.2.2.2.2.2.2.2.2.2.2.2.2.2.2.2.2.2

theorem selectMode_frame (x : In) (s : St) :
    (selectMode x s).tilt = s.tilt ∧ (selectMode x s).yawAlign = s.yawAlign ∧ (selectMode x s).gps = s.gps ∧ (selectMode x s).optFlow = s.optFlow ∧ (selectMode x s).magDec = s.magDec ∧ (selectMode x s).wind = s.wind ∧ (selectMode x s).evPos = s.evPos ∧ (selectMode x s).evVel = s.evVel ∧ (selectMode x s).evYaw = s.evYaw ∧ (selectMode x s).gpsYaw = s.gpsYaw ∧ (selectMode x s).magDist = s.magDist ∧ (selectMode x s).magFault = s.magFault ∧ (selectMode x s).fuseAspd = s.fuseAspd ∧ (selectMode x s).magAligned = s.magAligned ∧ (selectMode x s).magYawReq = s.magYawReq ∧ (selectMode x s).magInhReq = s.magInhReq ∧ (selectMode x s).velposReq = s.velposReq ∧ (selectMode x s).inhibited = s.inhibited ∧ (selectMode x s).nonMagPrev = s.nonMagPrev ∧ (selectMode x s).nBad = s.nBad ∧ (selectMode x s).declCovReset = s.declCovReset ∧ (selectMode x s).tAlign = s.tAlign ∧ (selectMode x s).tNotInh = s.tNotInh ∧ (selectMode x s).gpsYawFaulty = s.gpsYawFaulty ∧ (selectMode x s).doGsf = s.doGsf ∧ (selectMode x s).gsfTime = s.gsfTime ∧ (selectMode x s).gsfCount = s.gsfCount ∧ (selectMode x s).tPos = s.tPos ∧ (selectMode x s).tDelpos = s.tDelpos ∧ (selectMode x s).tVel = s.tVel ∧ (selectMode x s).tOf = s.tOf ∧ (selectMode x s).tBeta = s.tBeta ∧ (selectMode x s).tArsp = s.tArsp ∧ (selectMode x s).tFake = s.tFake ∧ (selectMode x s).tGpsYaw = s.tGpsYaw ∧ (selectMode x s).hposPrev = s.hposPrev ∧ (selectMode x s).hposOdom = s.hposOdom ∧ (selectMode x s).synth = s.synth ∧ (selectMode x s).flowReady = s.flowReady ∧ (selectMode x s).flowInh = s.flowInh ∧ (selectMode x s).tGood = s.tGood ∧ (selectMode x s).tBad = s.tBad := by
  unfold selectMode; (try dsimp only); split_ifs <;> simp [*]
@[simp] theorem selectMode_tilt (x : In) (s : St) : (selectMode x s).tilt = s.tilt := (selectMode_frame x s).1
@[simp] theorem selectMode_yawAlign (x : In) (s : St) : (selectMode x s).yawAlign = s.yawAlign := (selectMode_frame x s).2.1
@[simp] theorem selectMode_gps (x : In) (s : St) : (selectMode x s).gps = s.gps := (selectMode_frame x s).2.2.1
@[simp] theorem selectMode_optFlow (x : In) (s : St) : (selectMode x s).optFlow = s.optFlow := (selectMode_frame x s).2.2.2.1
@[simp] theorem selectMode_magDec (x : In) (s : St) : (selectMode x s).magDec = s.magDec := (selectMode_frame x s).2.2.2.2.1
@[simp] theorem selectMode_wind (x : In) (s : St) : (selectMode x s).wind = s.wind := (selectMode_frame x s).2.2.2.2.2.1
@[simp] theorem selectMode_evPos (x : In) (s : St) : (selectMode x s).evPos = s.evPos := (selectMode_frame x s).2.2.2.2.2.2.1
@[simp] theorem selectMode_evVel (x : In) (s : St) : (selectMode x s).evVel = s.evVel := (selectMode_frame x s).2.2.2.2.2.2.2.1
@[simp] theorem selectMode_evYaw (x : In) (s : St) : (selectMode x s).evYaw = s.evYaw := (selectMode_frame x s).2.2.2.2.2.2.2.2.1
@[simp] theorem selectMode_gpsYaw (x : In) (s : St) : (selectMode x s).gpsYaw = s.gpsYaw := (selectMode_frame x s).2.2.2.2.2.2.2.2.2.1
@[simp] theorem selectMode_magDist (x : In) (s : St) : (selectMode x s).magDist = s.magDist := (selectMode_frame x s).2.2.2.2.2.2.2.2.2.2.1
@[simp] theorem selectMode_magFault (x : In) (s : St) : (selectMode x s).magFault = s.magFault := (selectMode_frame x s).2.2.2.2.2.2.2.2.2.2.2.1
@[simp] theorem selectMode_fuseAspd (x : In) (s : St) : (selectMode x s).fuseAspd = s.fuseAspd := (selectMode_frame x s).2.2.2.2.2.2.2.2.2.2.2.2.1
@[simp] theorem selectMode_magAligned (x : In) (s : St) : (selectMode x s).magAligned = s.magAligned := (selectMode_frame x s).2.2.2.2.2.2.2.2.2.2.2.2.2.1
@[simp] theorem selectMode_magYawReq (x : In) (s : St) : (selectMode x s).magYawReq = s.magYawReq := (selectMode_frame x s).2.2.2.2.2.2.2.2.2.2.2.2.2.2.1
@[simp] theorem selectMode_magInhReq (x : In) (s : St) : (selectMode x s).magInhReq = s.magInhReq := (selectMode_frame x s).2.2.2.2.2.2.2.2.2.2.2.2.2.2.2.1
@[simp] theorem selectMode_velposReq (x : In) (s : St) : (selectMode x s).velposReq = s.velposReq := (selectMode_frame x s).2.2.2.2.2.2.2.2.2.2.2.2.2.2.2.2.1
@[simp] theorem selectMode_inhibited (x : In) (s : St) : (selectMode x s).inhibited = s.inhibited := (selectMode_frame x s).2.2.2.2.2.2.2.2.2.2.2.2.2.2.2.2.2.1
@[simp] theorem selectMode_nonMagPrev (x : In) (s : St) : (selectMode x s).nonMagPrev = s.nonMagPrev := (selectMode_frame x s).2.2.2.2.2.2.2.2.2.2.2.2.2.2.2.2.2.2.1
@[simp] theorem selectMode_nBad (x : In) (s : St) : (selectMode x s).nBad = s.nBad := (selectMode_frame x s).2.2.2.2.2.2.2.2.2.2.2.2.2.2.2.2.2.2.2.1
@[simp] theorem selectMode_declCovReset (x : In) (s : St) : (selectMode x s).declCovReset = s.declCovReset := (selectMode_frame x s).2.2.2.2.2.2.2.2.2.2.2.2.2.2.2.2.2.2.2.2.1
@[simp] theorem selectMode_tAlign (x : In) (s : St) : (selectMode x s).tAlign = s.tAlign := (selectMode_frame x s).2.2.2.2.2.2.2.2.2.2.2.2.2.2.2.2.2.2.2.2.2.1
@[simp] theorem selectMode_tNotInh (x : In) (s : St) : (selectMode x s).tNotInh = s.tNotInh := (selectMode_frame x s).2.2.2.2.2.2.2.2.2.2.2.2.2.2.2.2.2.2.2.2.2.2.1
@[simp] theorem selectMode_gpsYawFaulty (x : In) (s : St) : (selectMode x s).gpsYawFaulty = s.gpsYawFaulty := (selectMode_frame x s).2.2.2.2.2.2.2.2.2.2.2.2.2.2.2.2.2.2.2.2.2.2.2.1
@[simp] theorem selectMode_doGsf (x : In) (s : St) : (selectMode x s).doGsf = s.doGsf := (selectMode_frame x s).2.2.2.2.2.2.2.2.2.2.2.2.2.2.2.2.2.2.2.2.2.2.2.2.1
@[simp] theorem selectMode_gsfTime (x : In) (s : St) : (selectMode x s).gsfTime = s.gsfTime := (selectMode_frame x s).2.2.2.2.2.2.2.2.2.2.2.2.2.2.2.2.2.2.2.2.2.2.2.2.2.1
@[simp] theorem selectMode_gsfCount (x : In) (s : St) : (selectMode x s).gsfCount = s.gsfCount := (selectMode_frame x s).2.2.2.2.2.2.2.2.2.2.2.2.2.2.2.2.2.2.2.2.2.2.2.2.2.2.1
@[simp] theorem selectMode_tPos (x : In) (s : St) : (selectMode x s).tPos = s.tPos := (selectMode_frame x s).2.2.2.2.2.2.2.2.2.2.2.2.2.2.2.2.2.2.2.2.2.2.2.2.2.2.2.1
@[simp] theorem selectMode_tDelpos (x : In) (s : St) : (selectMode x s).tDelpos = s.tDelpos := (selectMode_frame x s).2.2.2.2.2.2.2.2.2.2.2.2.2.2.2.2.2.2.2.2.2.2.2.2.2.2.2.2.1
@[simp] theorem selectMode_tVel (x : In) (s : St) : (selectMode x s).tVel = s.tVel := (selectMode_frame x s).2.2.2.2.2.2.2.2.2.2.2.2.2.2.2.2.2.2.2.2.2.2.2.2.2.2.2.2.2.1
@[simp] theorem selectMode_tOf (x : In) (s : St) : (selectMode x s).tOf = s.tOf := (selectMode_frame x s).2.2.2.2.2.2.2.2.2.2.2.2.2.2.2.2.2.2.2.2.2.2.2.2.2.2.2.2.2.2.1
@[simp] theorem selectMode_tBeta (x : In) (s : St) : (selectMode x s).tBeta = s.tBeta := (selectMode_frame x s).2.2.2.2.2.2.2.2.2.2.2.2.2.2.2.2.2.2.2.2.2.2.2.2.2.2.2.2.2.2.2.1
@[simp] theorem selectMode_tArsp (x : In) (s : St) : (selectMode x s).tArsp = s.tArsp := (selectMode_frame x s).2.2.2.2.2.2.2.2.2.2.2.2.2.2.2.2.2.2.2.2.2.2.2.2.2.2.2.2.2.2.2.2.1
@[simp] theorem selectMode_tFake (x : In) (s : St) : (selectMode x s).tFake = s.tFake := (selectMode_frame x s).2.2.2.2.2.2.2.2.2.2.2.2.2.2.2.2.2.2.2.2.2.2.2.2.2.2.2.2.2.2.2.2.2.1
@[simp] theorem selectMode_tGpsYaw (x : In) (s : St) : (selectMode x s).tGpsYaw = s.tGpsYaw := (selectMode_frame x s).2.2.2.2.2.2.2.2.2.2.2.2.2.2.2.2.2.2.2.2.2.2.2.2.2.2.2.2.2.2.2.2.2.2.1
@[simp] theorem selectMode_hposPrev (x : In) (s : St) : (selectMode x s).hposPrev = s.hposPrev := (selectMode_frame x s).2.2.2.2.2.2.2.2.2.2.2.2.2.2.2.2.2.2.2.2.2.2.2.2.2.2.2.2.2.2.2.2.2.2.2.1
@[simp] theorem selectMode_hposOdom (x : In) (s : St) : (selectMode x s).hposOdom = s.hposOdom := (selectMode_frame x s).2.2.2.2.2.2.2.2.2.2.2.2.2.2.2.2.2.2.2.2.2.2.2.2.2.2.2.2.2.2.2.2.2.2.2.2.1
@[simp] theorem selectMode_synth (x : In) (s : St) : (selectMode x s).synth = s.synth := (selectMode_frame x s).2.2.2.2.2.2.2.2.2.2.2.2.2.2.2.2.2.2.2.2.2.2.2.2.2.2.2.2.2.2.2.2.2.2.2.2.2.1
@[simp] theorem selectMode_flowReady (x : In) (s : St) : (selectMode x s).flowReady = s.flowReady := (selectMode_frame x s).2.2.2.2.2.2.2.2.2.2.2.2.2.2.2.2.2.2.2.2.2.2.2.2.2.2.2.2.2.2.2.2.2.2.2.2.2.2.1
@[simp] theorem selectMode_flowInh (x : In) (s : St) : (selectMode x s).flowInh = s.flowInh := (selectMode_frame x s).2.2.2.2.2.2.2.2.2.2.2.2.2.2.2.2.2.2.2.2.2.2.2.2.2.2.2.2.2.2.2.2.2.2.2.2.2.2.2.1
@[simp] theorem selectMode_tGood (x : In) (s : St) : (selectMode x s).tGood = s.tGood := (selectMode_frame x s).2.2.2.2.2.2.2.2.2.2.2.2.2.2.2.2.2.2.2.2.2.2.2.2.2.2.2.2.2.2.2.2.2.2.2.2.2.2.2.2.1
@[simp] theorem selectMode_tBad (x : In) (s : St) : (selectMode x s).tBad = s.tBad := (selectMode_frame x s).2.2.2.2.2.2.2.2.2.2.2.2.2.2.2.2.2.2.2.2.2.2.2.2.2.2.2.2.2.2.2.2.2.2.2.2.2.2.2.2.2

theorem checkDecl_frame (x : In) (s : St) :
    (checkDecl x s).tilt = s.tilt ∧ (checkDecl x s).yawAlign = s.yawAlign ∧ (checkDecl x s).gps = s.gps ∧ (checkDecl x s).optFlow = s.optFlow ∧ (checkDecl x s).magHdg = s.magHdg ∧ (checkDecl x s).mag3D = s.mag3D ∧ (checkDecl x s).wind = s.wind ∧ (checkDecl x s).evPos = s.evPos ∧ (checkDecl x s).evVel = s.evVel ∧ (checkDecl x s).evYaw = s.evYaw ∧ (checkDecl x s).gpsYaw = s.gpsYaw ∧ (checkDecl x s).magDist = s.magDist ∧ (checkDecl x s).magFault = s.magFault ∧ (checkDecl x s).fuseAspd = s.fuseAspd ∧ (checkDecl x s).magAligned = s.magAligned ∧ (checkDecl x s).magYawReq = s.magYawReq ∧ (checkDecl x s).magInhReq = s.magInhReq ∧ (checkDecl x s).velposReq = s.velposReq ∧ (checkDecl x s).inhibited = s.inhibited ∧ (checkDecl x s).nonMagPrev = s.nonMagPrev ∧ (checkDecl x s).yawObs = s.yawObs ∧ (checkDecl x s).biasObs = s.biasObs ∧ (checkDecl x s).nBad = s.nBad ∧ (checkDecl x s).declCovReset = s.declCovReset ∧ (checkDecl x s).tAlign = s.tAlign ∧ (checkDecl x s).tMov = s.tMov ∧ (checkDecl x s).tNotInh = s.tNotInh ∧ (checkDecl x s).tYaw = s.tYaw ∧ (checkDecl x s).gpsYawFaulty = s.gpsYawFaulty ∧ (checkDecl x s).doGsf = s.doGsf ∧ (checkDecl x s).gsfTime = s.gsfTime ∧ (checkDecl x s).gsfCount = s.gsfCount ∧ (checkDecl x s).tPos = s.tPos ∧ (checkDecl x s).tDelpos = s.tDelpos ∧ (checkDecl x s).tVel = s.tVel ∧ (checkDecl x s).tOf = s.tOf ∧ (checkDecl x s).tBeta = s.tBeta ∧ (checkDecl x s).tArsp = s.tArsp ∧ (checkDecl x s).tFake = s.tFake ∧ (checkDecl x s).tGpsYaw = s.tGpsYaw ∧ (checkDecl x s).hposPrev = s.hposPrev ∧ (checkDecl x s).hposOdom = s.hposOdom ∧ (checkDecl x s).synth = s.synth ∧ (checkDecl x s).flowReady = s.flowReady ∧ (checkDecl x s).flowInh = s.flowInh ∧ (checkDecl x s).tGood = s.tGood ∧ (checkDecl x s).tBad = s.tBad := by
  unfold checkDecl; simp
@[simp] theorem checkDecl_tilt (x : In) (s : St) : (checkDecl x s).tilt = s.tilt := (checkDecl_frame x s).1
@[simp] theorem checkDecl_yawAlign (x : In) (s : St) : (checkDecl x s).yawAlign = s.yawAlign := (checkDecl_frame x s).2.1
@[simp] theorem checkDecl_gps (x : In) (s : St) : (checkDecl x s).gps = s.gps := (checkDecl_frame x s).2.2.1
@[simp] theorem checkDecl_optFlow (x : In) (s : St) : (checkDecl x s).optFlow = s.optFlow := (checkDecl_frame x s).2.2.2.1
@[simp] theorem checkDecl_magHdg (x : In) (s : St) : (checkDecl x s).magHdg = s.magHdg := (checkDecl_frame x s).2.2.2.2.1
@[simp] theorem checkDecl_mag3D (x : In) (s : St) : (checkDecl x s).mag3D = s.mag3D := (checkDecl_frame x s).2.2.2.2.2.1
@[simp] theorem checkDecl_wind (x : In) (s : St) : (checkDecl x s).wind = s.wind := (checkDecl_frame x s).2.2.2.2.2.2.1
@[simp] theorem checkDecl_evPos (x : In) (s : St) : (checkDecl x s).evPos = s.evPos := (checkDecl_frame x s).2.2.2.2.2.2.2.1
@[simp] theorem checkDecl_evVel (x : In) (s : St) : (checkDecl x s).evVel = s.evVel := (checkDecl_frame x s).2.2.2.2.2.2.2.2.1
@[simp] theorem checkDecl_evYaw (x : In) (s : St) : (checkDecl x s).evYaw = s.evYaw := (checkDecl_frame x s).2.2.2.2.2.2.2.2.2.1
@[simp] theorem checkDecl_gpsYaw (x : In) (s : St) : (checkDecl x s).gpsYaw = s.gpsYaw := (checkDecl_frame x s).2.2.2.2.2.2.2.2.2.2.1
@[simp] theorem checkDecl_magDist (x : In) (s : St) : (checkDecl x s).magDist = s.magDist := (checkDecl_frame x s).2.2.2.2.2.2.2.2.2.2.2.1
@[simp] theorem checkDecl_magFault (x : In) (s : St) : (checkDecl x s).magFault = s.magFault := (checkDecl_frame x s).2.2.2.2.2.2.2.2.2.2.2.2.1
@[simp] theorem checkDecl_fuseAspd (x : In) (s : St) : (checkDecl x s).fuseAspd = s.fuseAspd := (checkDecl_frame x s).2.2.2.2.2.2.2.2.2.2.2.2.2.1
@[simp] theorem checkDecl_magAligned (x : In) (s : St) : (checkDecl x s).magAligned = s.magAligned := (checkDecl_frame x s).2.2.2.2.2.2.2.2.2.2.2.2.2.2.1
@[simp] theorem checkDecl_magYawReq (x : In) (s : St) : (checkDecl x s).magYawReq = s.magYawReq := (checkDecl_frame x s).2.2.2.2.2.2.2.2.2.2.2.2.2.2.2.1
@[simp] theorem checkDecl_magInhReq (x : In) (s : St) : (checkDecl x s).magInhReq = s.magInhReq := (checkDecl_frame x s).2.2.2.2.2.2.2.2.2.2.2.2.2.2.2.2.1
@[simp] theorem checkDecl_velposReq (x : In) (s : St) : (checkDecl x s).velposReq = s.velposReq := (checkDecl_frame x s).2.2.2.2.2.2.2.2.2.2.2.2.2.2.2.2.2.1
@[simp] theorem checkDecl_inhibited (x : In) (s : St) : (checkDecl x s).inhibited = s.inhibited := (checkDecl_frame x s).2.2.2.2.2.2.2.2.2.2.2.2.2.2.2.2.2.2.1
@[simp] theorem checkDecl_nonMagPrev (x : In) (s : St) : (checkDecl x s).nonMagPrev = s.nonMagPrev := (checkDecl_frame x s).2.2.2.2.2.2.2.2.2.2.2.2.2.2.2.2.2.2.2.1
@[simp] theorem checkDecl_yawObs (x : In) (s : St) : (checkDecl x s).yawObs = s.yawObs := (checkDecl_frame x s).2.2.2.2.2.2.2.2.2.2.2.2.2.2.2.2.2.2.2.2.1
@[simp] theorem checkDecl_biasObs (x : In) (s : St) : (checkDecl x s).biasObs = s.biasObs := (checkDecl_frame x s).2.2.2.2.2.2.2.2.2.2.2.2.2.2.2.2.2.2.2.2.2.1
@[simp] theorem checkDecl_nBad (x : In) (s : St) : (checkDecl x s).nBad = s.nBad := (checkDecl_frame x s).2.2.2.2.2.2.2.2.2.2.2.2.2.2.2.2.2.2.2.2.2.2.1
@[simp] theorem checkDecl_declCovReset (x : In) (s : St) : (checkDecl x s).declCovReset = s.declCovReset := (checkDecl_frame x s).2.2.2.2.2.2.2.2.2.2.2.2.2.2.2.2.2.2.2.2.2.2.2.1
@[simp] theorem checkDecl_tAlign (x : In) (s : St) : (checkDecl x s).tAlign = s.tAlign := (checkDecl_frame x s).2.2.2.2.2.2.2.2.2.2.2.2.2.2.2.2.2.2.2.2.2.2.2.2.1
@[simp] theorem checkDecl_tMov (x : In) (s : St) : (checkDecl x s).tMov = s.tMov := (checkDecl_frame x s).2.2.2.2.2.2.2.2.2.2.2.2.2.2.2.2.2.2.2.2.2.2.2.2.2.1
@[simp] theorem checkDecl_tNotInh (x : In) (s : St) : (checkDecl x s).tNotInh = s.tNotInh := (checkDecl_frame x s).2.2.2.2.2.2.2.2.2.2.2.2.2.2.2.2.2.2.2.2.2.2.2.2.2.2.1
@[simp] theorem checkDecl_tYaw (x : In) (s : St) : (checkDecl x s).tYaw = s.tYaw := (checkDecl_frame x s).2.2.2.2.2.2.2.2.2.2.2.2.2.2.2.2.2.2.2.2.2.2.2.2.2.2.2.1
@[simp] theorem checkDecl_gpsYawFaulty (x : In) (s : St) : (checkDecl x s).gpsYawFaulty = s.gpsYawFaulty := (checkDecl_frame x s).2.2.2.2.2.2.2.2.2.2.2.2.2.2.2.2.2.2.2.2.2.2.2.2.2.2.2.2.1
@[simp] theorem checkDecl_doGsf (x : In) (s : St) : (checkDecl x s).doGsf = s.doGsf := (checkDecl_frame x s).2.2.2.2.2.2.2.2.2.2.2.2.2.2.2.2.2.2.2.2.2.2.2.2.2.2.2.2.2.1
@[simp] theorem checkDecl_gsfTime (x : In) (s : St) : (checkDecl x s).gsfTime = s.gsfTime := (checkDecl_frame x s).2.2.2.2.2.2.2.2.2.2.2.2.2.2.2.2.2.2.2.2.2.2.2.2.2.2.2.2.2.2.1
@[simp] theorem checkDecl_gsfCount (x : In) (s : St) : (checkDecl x s).gsfCount = s.gsfCount := (checkDecl_frame x s).2.2.2.2.2.2.2.2.2.2.2.2.2.2.2.2.2.2.2.2.2.2.2.2.2.2.2.2.2.2.2.1
@[simp] theorem checkDecl_tPos (x : In) (s : St) : (checkDecl x s).tPos = s.tPos := (checkDecl_frame x s).2.2.2.2.2.2.2.2.2.2.2.2.2.2.2.2.2.2.2.2.2.2.2.2.2.2.2.2.2.2.2.2.1
@[simp] theorem checkDecl_tDelpos (x : In) (s : St) : (checkDecl x s).tDelpos = s.tDelpos := (checkDecl_frame x s).2.2.2.2.2.2.2.2.2.2.2.2.2.2.2.2.2.2.2.2.2.2.2.2.2.2.2.2.2.2.2.2.2.1
@[simp] theorem checkDecl_tVel (x : In) (s : St) : (checkDecl x s).tVel = s.tVel := (checkDecl_frame x s).2.2.2.2.2.2.2.2.2.2.2.2.2.2.2.2.2.2.2.2.2.2.2.2.2.2.2.2.2.2.2.2.2.2.1
@[simp] theorem checkDecl_tOf (x : In) (s : St) : (checkDecl x s).tOf = s.tOf := (checkDecl_frame x s).2.2.2.2.2.2.2.2.2.2.2.2.2.2.2.2.2.2.2.2.2.2.2.2.2.2.2.2.2.2.2.2.2.2.2.1
@[simp] theorem checkDecl_tBeta (x : In) (s : St) : (checkDecl x s).tBeta = s.tBeta := (checkDecl_frame x s).2.2.2.2.2.2.2.2.2.2.2.2.2.2.2.2.2.2.2.2.2.2.2.2.2.2.2.2.2.2.2.2.2.2.2.2.1
@[simp] theorem checkDecl_tArsp (x : In) (s : St) : (checkDecl x s).tArsp = s.tArsp := (checkDecl_frame x s).2.2.2.2.2.2.2.2.2.2.2.2.2.2.2.2.2.2.2.2.2.2.2.2.2.2.2.2.2.2.2.2.2.2.2.2.2.1
@[simp] theorem checkDecl_tFake (x : In) (s : St) : (checkDecl x s).tFake = s.tFake := (checkDecl_frame x s).2.2.2.2.2.2.2.2.2.2.2.2.2.2.2.2.2.2.2.2.2.2.2.2.2.2.2.2.2.2.2.2.2.2.2.2.2.2.1
@[simp] theorem checkDecl_tGpsYaw (x : In) (s : St) : (checkDecl x s).tGpsYaw = s.tGpsYaw := (checkDecl_frame x s).2.2.2.2.2.2.2.2.2.2.2.2.2.2.2.2.2.2.2.2.2.2.2.2.2.2.2.2.2.2.2.2.2.2.2.2.2.2.2.1
@[simp] theorem checkDecl_hposPrev (x : In) (s : St) : (checkDecl x s).hposPrev = s.hposPrev := (checkDecl_frame x s).2.2.2.2.2.2.2.2.2.2.2.2.2.2.2.2.2.2.2.2.2.2.2.2.2.2.2.2.2.2.2.2.2.2.2.2.2.2.2.2.1
@[simp] theorem checkDecl_hposOdom (x : In) (s : St) : (checkDecl x s).hposOdom = s.hposOdom := (checkDecl_frame x s).2.2.2.2.2.2.2.2.2.2.2.2.2.2.2.2.2.2.2.2.2.2.2.2.2.2.2.2.2.2.2.2.2.2.2.2.2.2.2.2.2.1
@[simp] theorem checkDecl_synth (x : In) (s : St) : (checkDecl x s).synth = s.synth := (checkDecl_frame x s).2.2.2.2.2.2.2.2.2.2.2.2.2.2.2.2.2.2.2.2.2.2.2.2.2.2.2.2.2.2.2.2.2.2.2.2.2.2.2.2.2.2.1
@[simp] theorem checkDecl_flowReady (x : In) (s : St) : (checkDecl x s).flowReady = s.flowReady := (checkDecl_frame x s).2.2.2.2.2.2.2.2.2.2.2.2.2.2.2.2.2.2.2.2.2.2.2.2.2.2.2.2.2.2.2.2.2.2.2.2.2.2.2.2.2.2.2.1
@[simp] theorem checkDecl_flowInh (x : In) (s : St) : (checkDecl x s).flowInh = s.flowInh := (checkDecl_frame x s).2.2.2.2.2.2.2.2.2.2.2.2.2.2.2.2.2.2.2.2.2.2.2.2.2.2.2.2.2.2.2.2.2.2.2.2.2.2.2.2.2.2.2.2.1
@[simp] theorem checkDecl_tGood (x : In) (s : St) : (checkDecl x s).tGood = s.tGood := (checkDecl_frame x s).2.2.2.2.2.2.2.2.2.2.2.2.2.2.2.2.2.2.2.2.2.2.2.2.2.2.2.2.2.2.2.2.2.2.2.2.2.2.2.2.2.2.2.2.2.1
@[simp] theorem checkDecl_tBad (x : In) (s : St) : (checkDecl x s).tBad = s.tBad := (checkDecl_frame x s).2.2.2.2.2.2.2.2.2.2.2.2.2.2.2.2.2.2.2.2.2.2.2.2.2.2.2.2.2.2.2.2.2.2.2.2.2.2.2.2.2.2.2.2.2.2

theorem checkInhibition_frame (x : In) (s : St) :
    (checkInhibition x s).tilt = s.tilt ∧ (checkInhibition x s).yawAlign = s.yawAlign ∧ (checkInhibition x s).gps = s.gps ∧ (checkInhibition x s).optFlow = s.optFlow ∧ (checkInhibition x s).magHdg = s.magHdg ∧ (checkInhibition x s).mag3D = s.mag3D ∧ (checkInhibition x s).magDec = s.magDec ∧ (checkInhibition x s).wind = s.wind ∧ (checkInhibition x s).evPos = s.evPos ∧ (checkInhibition x s).evVel = s.evVel ∧ (checkInhibition x s).evYaw = s.evYaw ∧ (checkInhibition x s).gpsYaw = s.gpsYaw ∧ (checkInhibition x s).magDist = s.magDist ∧ (checkInhibition x s).magFault = s.magFault ∧ (checkInhibition x s).fuseAspd = s.fuseAspd ∧ (checkInhibition x s).magAligned = s.magAligned ∧ (checkInhibition x s).magYawReq = s.magYawReq ∧ (checkInhibition x s).velposReq = s.velposReq ∧ (checkInhibition x s).nonMagPrev = s.nonMagPrev ∧ (checkInhibition x s).yawObs = s.yawObs ∧ (checkInhibition x s).biasObs = s.biasObs ∧ (checkInhibition x s).nBad = s.nBad ∧ (checkInhibition x s).declCovReset = s.declCovReset ∧ (checkInhibition x s).tAlign = s.tAlign ∧ (checkInhibition x s).tMov = s.tMov ∧ (checkInhibition x s).tYaw = s.tYaw ∧ (checkInhibition x s).gpsYawFaulty = s.gpsYawFaulty ∧ (checkInhibition x s).doGsf = s.doGsf ∧ (checkInhibition x s).gsfTime = s.gsfTime ∧ (checkInhibition x s).gsfCount = s.gsfCount ∧ (checkInhibition x s).tPos = s.tPos ∧ (checkInhibition x s).tDelpos = s.tDelpos ∧ (checkInhibition x s).tVel = s.tVel ∧ (checkInhibition x s).tOf = s.tOf ∧ (checkInhibition x s).tBeta = s.tBeta ∧ (checkInhibition x s).tArsp = s.tArsp ∧ (checkInhibition x s).tFake = s.tFake ∧ (checkInhibition x s).tGpsYaw = s.tGpsYaw ∧ (checkInhibition x s).hposPrev = s.hposPrev ∧ (checkInhibition x s).hposOdom = s.hposOdom ∧ (checkInhibition x s).synth = s.synth ∧ (checkInhibition x s).flowReady = s.flowReady ∧ (checkInhibition x s).flowInh = s.flowInh ∧ (checkInhibition x s).tGood = s.tGood ∧ (checkInhibition x s).tBad = s.tBad := by
  unfold checkInhibition; (try dsimp only); split_ifs <;> simp [*]
@[simp] theorem checkInhibition_tilt (x : In) (s : St) : (checkInhibition x s).tilt = s.tilt := (checkInhibition_frame x s).1
@[simp] theorem checkInhibition_yawAlign (x : In) (s : St) : (checkInhibition x s).yawAlign = s.yawAlign := (checkInhibition_frame x s).2.1
@[simp] theorem checkInhibition_gps (x : In) (s : St) : (checkInhibition x s).gps = s.gps := (checkInhibition_frame x s).2.2.1
@[simp] theorem checkInhibition_optFlow (x : In) (s : St) : (checkInhibition x s).optFlow = s.optFlow := (checkInhibition_frame x s).2.2.2.1
@[simp] theorem checkInhibition_magHdg (x : In) (s : St) : (checkInhibition x s).magHdg = s.magHdg := (checkInhibition_frame x s).2.2.2.2.1
@[simp] theorem checkInhibition_mag3D (x : In) (s : St) : (checkInhibition x s).mag3D = s.mag3D := (checkInhibition_frame x s).2.2.2.2.2.1
@[simp] theorem checkInhibition_magDec (x : In) (s : St) : (checkInhibition x s).magDec = s.magDec := (checkInhibition_frame x s).2.2.2.2.2.2.1
@[simp] theorem checkInhibition_wind (x : In) (s : St) : (checkInhibition x s).wind = s.wind := (checkInhibition_frame x s).2.2.2.2.2.2.2.1
@[simp] theorem checkInhibition_evPos (x : In) (s : St) : (checkInhibition x s).evPos = s.evPos := (checkInhibition_frame x s).2.2.2.2.2.2.2.2.1
@[simp] theorem checkInhibition_evVel (x : In) (s : St) : (checkInhibition x s).evVel = s.evVel := (checkInhibition_frame x s).2.2.2.2.2.2.2.2.2.1
@[simp] theorem checkInhibition_evYaw (x : In) (s : St) : (checkInhibition x s).evYaw = s.evYaw := (checkInhibition_frame x s).2.2.2.2.2.2.2.2.2.2.1
@[simp] theorem checkInhibition_gpsYaw (x : In) (s : St) : (checkInhibition x s).gpsYaw = s.gpsYaw := (checkInhibition_frame x s).2.2.2.2.2.2.2.2.2.2.2.1
@[simp] theorem checkInhibition_magDist (x : In) (s : St) : (checkInhibition x s).magDist = s.magDist := (checkInhibition_frame x s).2.2.2.2.2.2.2.2.2.2.2.2.1
@[simp] theorem checkInhibition_magFault (x : In) (s : St) : (checkInhibition x s).magFault = s.magFault := (checkInhibition_frame x s).2.2.2.2.2.2.2.2.2.2.2.2.2.1
@[simp] theorem checkInhibition_fuseAspd (x : In) (s : St) : (checkInhibition x s).fuseAspd = s.fuseAspd := (checkInhibition_frame x s).2.2.2.2.2.2.2.2.2.2.2.2.2.2.1
@[simp] theorem checkInhibition_magAligned (x : In) (s : St) : (checkInhibition x s).magAligned = s.magAligned := (checkInhibition_frame x s).2.2.2.2.2.2.2.2.2.2.2.2.2.2.2.1
@[simp] theorem checkInhibition_magYawReq (x : In) (s : St) : (checkInhibition x s).magYawReq = s.magYawReq := (checkInhibition_frame x s).2.2.2.2.2.2.2.2.2.2.2.2.2.2.2.2.1
@[simp] theorem checkInhibition_velposReq (x : In) (s : St) : (checkInhibition x s).velposReq = s.velposReq := (checkInhibition_frame x s).2.2.2.2.2.2.2.2.2.2.2.2.2.2.2.2.2.1
@[simp] theorem checkInhibition_nonMagPrev (x : In) (s : St) : (checkInhibition x s).nonMagPrev = s.nonMagPrev := (checkInhibition_frame x s).2.2.2.2.2.2.2.2.2.2.2.2.2.2.2.2.2.2.1
@[simp] theorem checkInhibition_yawObs (x : In) (s : St) : (checkInhibition x s).yawObs = s.yawObs := (checkInhibition_frame x s).2.2.2.2.2.2.2.2.2.2.2.2.2.2.2.2.2.2.2.1
@[simp] theorem checkInhibition_biasObs (x : In) (s : St) : (checkInhibition x s).biasObs = s.biasObs := (checkInhibition_frame x s).2.2.2.2.2.2.2.2.2.2.2.2.2.2.2.2.2.2.2.2.1
@[simp] theorem checkInhibition_nBad (x : In) (s : St) : (checkInhibition x s).nBad = s.nBad := (checkInhibition_frame x s).2.2.2.2.2.2.2.2.2.2.2.2.2.2.2.2.2.2.2.2.2.1
@[simp] theorem checkInhibition_declCovReset (x : In) (s : St) : (checkInhibition x s).declCovReset = s.declCovReset := (checkInhibition_frame x s).2.2.2.2.2.2.2.2.2.2.2.2.2.2.2.2.2.2.2.2.2.2.1
@[simp] theorem checkInhibition_tAlign (x : In) (s : St) : (checkInhibition x s).tAlign = s.tAlign := (checkInhibition_frame x s).2.2.2.2.2.2.2.2.2.2.2.2.2.2.2.2.2.2.2.2.2.2.2.1
@[simp] theorem checkInhibition_tMov (x : In) (s : St) : (checkInhibition x s).tMov = s.tMov := (checkInhibition_frame x s).2.2.2.2.2.2.2.2.2.2.2.2.2.2.2.2.2.2.2.2.2.2.2.2.1
@[simp] theorem checkInhibition_tYaw (x : In) (s : St) : (checkInhibition x s).tYaw = s.tYaw := (checkInhibition_frame x s).2.2.2.2.2.2.2.2.2.2.2.2.2.2.2.2.2.2.2.2.2.2.2.2.2.1
@[simp] theorem checkInhibition_gpsYawFaulty (x : In) (s : St) : (checkInhibition x s).gpsYawFaulty = s.gpsYawFaulty := (checkInhibition_frame x s).2.2.2.2.2.2.2.2.2.2.2.2.2.2.2.2.2.2.2.2.2.2.2.2.2.2.1
@[simp] theorem checkInhibition_doGsf (x : In) (s : St) : (checkInhibition x s).doGsf = s.doGsf := (checkInhibition_frame x s).2.2.2.2.2.2.2.2.2.2.2.2.2.2.2.2.2.2.2.2.2.2.2.2.2.2.2.1
@[simp] theorem checkInhibition_gsfTime (x : In) (s : St) : (checkInhibition x s).gsfTime = s.gsfTime := (checkInhibition_frame x s).2.2.2.2.2.2.2.2.2.2.2.2.2.2.2.2.2.2.2.2.2.2.2.2.2.2.2.2.1
@[simp] theorem checkInhibition_gsfCount (x : In) (s : St) : (checkInhibition x s).gsfCount = s.gsfCount := (checkInhibition_frame x s).2.2.2.2.2.2.2.2.2.2.2.2.2.2.2.2.2.2.2.2.2.2.2.2.2.2.2.2.2.1
@[simp] theorem checkInhibition_tPos (x : In) (s : St) : (checkInhibition x s).tPos = s.tPos := (checkInhibition_frame x s).2.2.2.2.2.2.2.2.2.2.2.2.2.2.2.2.2.2.2.2.2.2.2.2.2.2.2.2.2.2.1
@[simp] theorem checkInhibition_tDelpos (x : In) (s : St) : (checkInhibition x s).tDelpos = s.tDelpos := (checkInhibition_frame x s).2.2.2.2.2.2.2.2.2.2.2.2.2.2.2.2.2.2.2.2.2.2.2.2.2.2.2.2.2.2.2.1
@[simp] theorem checkInhibition_tVel (x : In) (s : St) : (checkInhibition x s).tVel = s.tVel := (checkInhibition_frame x s).2.2.2.2.2.2.2.2.2.2.2.2.2.2.2.2.2.2.2.2.2.2.2.2.2.2.2.2.2.2.2.2.1
@[simp] theorem checkInhibition_tOf (x : In) (s : St) : (checkInhibition x s).tOf = s.tOf := (checkInhibition_frame x s).2.2.2.2.2.2.2.2.2.2.2.2.2.2.2.2.2.2.2.2.2.2.2.2.2.2.2.2.2.2.2.2.2.1
@[simp] theorem checkInhibition_tBeta (x : In) (s : St) : (checkInhibition x s).tBeta = s.tBeta := (checkInhibition_frame x s).2.2.2.2.2.2.2.2.2.2.2.2.2.2.2.2.2.2.2.2.2.2.2.2.2.2.2.2.2.2.2.2.2.2.1
@[simp] theorem checkInhibition_tArsp (x : In) (s : St) : (checkInhibition x s).tArsp = s.tArsp := (checkInhibition_frame x s).2.2.2.2.2.2.2.2.2.2.2.2.2.2.2.2.2.2.2.2.2.2.2.2.2.2.2.2.2.2.2.2.2.2.2.1
@[simp] theorem checkInhibition_tFake (x : In) (s : St) : (checkInhibition x s).tFake = s.tFake := (checkInhibition_frame x s).2.2.2.2.2.2.2.2.2.2.2.2.2.2.2.2.2.2.2.2.2.2.2.2.2.2.2.2.2.2.2.2.2.2.2.2.1
@[simp] theorem checkInhibition_tGpsYaw (x : In) (s : St) : (checkInhibition x s).tGpsYaw = s.tGpsYaw := (checkInhibition_frame x s).2.2.2.2.2.2.2.2.2.2.2.2.2.2.2.2.2.2.2.2.2.2.2.2.2.2.2.2.2.2.2.2.2.2.2.2.2.1
@[simp] theorem checkInhibition_hposPrev (x : In) (s : St) : (checkInhibition x s).hposPrev = s.hposPrev := (checkInhibition_frame x s).2.2.2.2.2.2.2.2.2.2.2.2.2.2.2.2.2.2.2.2.2.2.2.2.2.2.2.2.2.2.2.2.2.2.2.2.2.2.1
@[simp] theorem checkInhibition_hposOdom (x : In) (s : St) : (checkInhibition x s).hposOdom = s.hposOdom := (checkInhibition_frame x s).2.2.2.2.2.2.2.2.2.2.2.2.2.2.2.2.2.2.2.2.2.2.2.2.2.2.2.2.2.2.2.2.2.2.2.2.2.2.2.1
@[simp] theorem checkInhibition_synth (x : In) (s : St) : (checkInhibition x s).synth = s.synth := (checkInhibition_frame x s).2.2.2.2.2.2.2.2.2.2.2.2.2.2.2.2.2.2.2.2.2.2.2.2.2.2.2.2.2.2.2.2.2.2.2.2.2.2.2.2.1
@[simp] theorem checkInhibition_flowReady (x : In) (s : St) : (checkInhibition x s).flowReady = s.flowReady := (checkInhibition_frame x s).2.2.2.2.2.2.2.2.2.2.2.2.2.2.2.2.2.2.2.2.2.2.2.2.2.2.2.2.2.2.2.2.2.2.2.2.2.2.2.2.2.1
@[simp] theorem checkInhibition_flowInh (x : In) (s : St) : (checkInhibition x s).flowInh = s.flowInh := (checkInhibition_frame x s).2.2.2.2.2.2.2.2.2.2.2.2.2.2.2.2.2.2.2.2.2.2.2.2.2.2.2.2.2.2.2.2.2.2.2.2.2.2.2.2.2.2.1
@[simp] theorem checkInhibition_tGood (x : In) (s : St) : (checkInhibition x s).tGood = s.tGood := (checkInhibition_frame x s).2.2.2.2.2.2.2.2.2.2.2.2.2.2.2.2.2.2.2.2.2.2.2.2.2.2.2.2.2.2.2.2.2.2.2.2.2.2.2.2.2.2.2.1
@[simp] theorem checkInhibition_tBad (x : In) (s : St) : (checkInhibition x s).tBad = s.tBad := (checkInhibition_frame x s).2.2.2.2.2.2.2.2.2.2.2.2.2.2.2.2.2.2.2.2.2.2.2.2.2.2.2.2.2.2.2.2.2.2.2.2.2.2.2.2.2.2.2.2

theorem runMagFusions_frame (s : St) :
    (runMagFusions s).tilt = s.tilt ∧ (runMagFusions s).yawAlign = s.yawAlign ∧ (runMagFusions s).gps = s.gps ∧ (runMagFusions s).optFlow = s.optFlow ∧ (runMagFusions s).magHdg = s.magHdg ∧ (runMagFusions s).mag3D = s.mag3D ∧ (runMagFusions s).magDec = s.magDec ∧ (runMagFusions s).wind = s.wind ∧ (runMagFusions s).evPos = s.evPos ∧ (runMagFusions s).evVel = s.evVel ∧ (runMagFusions s).evYaw = s.evYaw ∧ (runMagFusions s).gpsYaw = s.gpsYaw ∧ (runMagFusions s).magDist = s.magDist ∧ (runMagFusions s).magFault = s.magFault ∧ (runMagFusions s).fuseAspd = s.fuseAspd ∧ (runMagFusions s).magAligned = s.magAligned ∧ (runMagFusions s).magYawReq = s.magYawReq ∧ (runMagFusions s).magInhReq = s.magInhReq ∧ (runMagFusions s).velposReq = s.velposReq ∧ (runMagFusions s).inhibited = s.inhibited ∧ (runMagFusions s).nonMagPrev = s.nonMagPrev ∧ (runMagFusions s).yawObs = s.yawObs ∧ (runMagFusions s).biasObs = s.biasObs ∧ (runMagFusions s).nBad = s.nBad ∧ (runMagFusions s).tAlign = s.tAlign ∧ (runMagFusions s).tMov = s.tMov ∧ (runMagFusions s).tNotInh = s.tNotInh ∧ (runMagFusions s).tYaw = s.tYaw ∧ (runMagFusions s).gpsYawFaulty = s.gpsYawFaulty ∧ (runMagFusions s).doGsf = s.doGsf ∧ (runMagFusions s).gsfTime = s.gsfTime ∧ (runMagFusions s).gsfCount = s.gsfCount ∧ (runMagFusions s).tPos = s.tPos ∧ (runMagFusions s).tDelpos = s.tDelpos ∧ (runMagFusions s).tVel = s.tVel ∧ (runMagFusions s).tOf = s.tOf ∧ (runMagFusions s).tBeta = s.tBeta ∧ (runMagFusions s).tArsp = s.tArsp ∧ (runMagFusions s).tFake = s.tFake ∧ (runMagFusions s).tGpsYaw = s.tGpsYaw ∧ (runMagFusions s).hposPrev = s.hposPrev ∧ (runMagFusions s).hposOdom = s.hposOdom ∧ (runMagFusions s).synth = s.synth ∧ (runMagFusions s).flowReady = s.flowReady ∧ (runMagFusions s).flowInh = s.flowInh ∧ (runMagFusions s).tGood = s.tGood ∧ (runMagFusions s).tBad = s.tBad := by
  unfold runMagFusions; (try dsimp only); split_ifs <;> simp [*]
@[simp] theorem runMagFusions_tilt (s : St) : (runMagFusions s).tilt = s.tilt := (runMagFusions_frame s).1
@[simp] theorem runMagFusions_yawAlign (s : St) : (runMagFusions s).yawAlign = s.yawAlign := (runMagFusions_frame s).2.1
@[simp] theorem runMagFusions_gps (s : St) : (runMagFusions s).gps = s.gps := (runMagFusions_frame s).2.2.1
@[simp] theorem runMagFusions_optFlow (s : St) : (runMagFusions s).optFlow = s.optFlow := (runMagFusions_frame s).2.2.2.1
@[simp] theorem runMagFusions_magHdg (s : St) : (runMagFusions s).magHdg = s.magHdg := (runMagFusions_frame s).2.2.2.2.1
@[simp] theorem runMagFusions_mag3D (s : St) : (runMagFusions s).mag3D = s.mag3D := (runMagFusions_frame s).2.2.2.2.2.1
@[simp] theorem runMagFusions_magDec (s : St) : (runMagFusions s).magDec = s.magDec := (runMagFusions_frame s).2.2.2.2.2.2.1
@[simp] theorem runMagFusions_wind (s : St) : (runMagFusions s).wind = s.wind := (runMagFusions_frame s).2.2.2.2.2.2.2.1
@[simp] theorem runMagFusions_evPos (s : St) : (runMagFusions s).evPos = s.evPos := (runMagFusions_frame s).2.2.2.2.2.2.2.2.1
@[simp] theorem runMagFusions_evVel (s : St) : (runMagFusions s).evVel = s.evVel := (runMagFusions_frame s).2.2.2.2.2.2.2.2.2.1
@[simp] theorem runMagFusions_evYaw (s : St) : (runMagFusions s).evYaw = s.evYaw := (runMagFusions_frame s).2.2.2.2.2.2.2.2.2.2.1
@[simp] theorem runMagFusions_gpsYaw (s : St) : (runMagFusions s).gpsYaw = s.gpsYaw := (runMagFusions_frame s).2.2.2.2.2.2.2.2.2.2.2.1
@[simp] theorem runMagFusions_magDist (s : St) : (runMagFusions s).magDist = s.magDist := (runMagFusions_frame s).2.2.2.2.2.2.2.2.2.2.2.2.1
@[simp] theorem runMagFusions_magFault (s : St) : (runMagFusions s).magFault = s.magFault := (runMagFusions_frame s).2.2.2.2.2.2.2.2.2.2.2.2.2.1
@[simp] theorem runMagFusions_fuseAspd (s : St) : (runMagFusions s).fuseAspd = s.fuseAspd := (runMagFusions_frame s).2.2.2.2.2.2.2.2.2.2.2.2.2.2.1
@[simp] theorem runMagFusions_magAligned (s : St) : (runMagFusions s).magAligned = s.magAligned := (runMagFusions_frame s).2.2.2.2.2.2.2.2.2.2.2.2.2.2.2.1
@[simp] theorem runMagFusions_magYawReq (s : St) : (runMagFusions s).magYawReq = s.magYawReq := (runMagFusions_frame s).2.2.2.2.2.2.2.2.2.2.2.2.2.2.2.2.1
@[simp] theorem runMagFusions_magInhReq (s : St) : (runMagFusions s).magInhReq = s.magInhReq := (runMagFusions_frame s).2.2.2.2.2.2.2.2.2.2.2.2.2.2.2.2.2.1
@[simp] theorem runMagFusions_velposReq (s : St) : (runMagFusions s).velposReq = s.velposReq := (runMagFusions_frame s).2.2.2.2.2.2.2.2.2.2.2.2.2.2.2.2.2.2.1
@[simp] theorem runMagFusions_inhibited (s : St) : (runMagFusions s).inhibited = s.inhibited := (runMagFusions_frame s).2.2.2.2.2.2.2.2.2.2.2.2.2.2.2.2.2.2.2.1
@[simp] theorem runMagFusions_nonMagPrev (s : St) : (runMagFusions s).nonMagPrev = s.nonMagPrev := (runMagFusions_frame s).2.2.2.2.2.2.2.2.2.2.2.2.2.2.2.2.2.2.2.2.1
@[simp] theorem runMagFusions_yawObs (s : St) : (runMagFusions s).yawObs = s.yawObs := (runMagFusions_frame s).2.2.2.2.2.2.2.2.2.2.2.2.2.2.2.2.2.2.2.2.2.1
@[simp] theorem runMagFusions_biasObs (s : St) : (runMagFusions s).biasObs = s.biasObs := (runMagFusions_frame s).2.2.2.2.2.2.2.2.2.2.2.2.2.2.2.2.2.2.2.2.2.2.1
@[simp] theorem runMagFusions_nBad (s : St) : (runMagFusions s).nBad = s.nBad := (runMagFusions_frame s).2.2.2.2.2.2.2.2.2.2.2.2.2.2.2.2.2.2.2.2.2.2.2.1
@[simp] theorem runMagFusions_tAlign (s : St) : (runMagFusions s).tAlign = s.tAlign := (runMagFusions_frame s).2.2.2.2.2.2.2.2.2.2.2.2.2.2.2.2.2.2.2.2.2.2.2.2.1
@[simp] theorem runMagFusions_tMov (s : St) : (runMagFusions s).tMov = s.tMov := (runMagFusions_frame s).2.2.2.2.2.2.2.2.2.2.2.2.2.2.2.2.2.2.2.2.2.2.2.2.2.1
@[simp] theorem runMagFusions_tNotInh (s : St) : (runMagFusions s).tNotInh = s.tNotInh := (runMagFusions_frame s).2.2.2.2.2.2.2.2.2.2.2.2.2.2.2.2.2.2.2.2.2.2.2.2.2.2.1
@[simp] theorem runMagFusions_tYaw (s : St) : (runMagFusions s).tYaw = s.tYaw := (runMagFusions_frame s).2.2.2.2.2.2.2.2.2.2.2.2.2.2.2.2.2.2.2.2.2.2.2.2.2.2.2.1
@[simp] theorem runMagFusions_gpsYawFaulty (s : St) : (runMagFusions s).gpsYawFaulty = s.gpsYawFaulty := (runMagFusions_frame s).2.2.2.2.2.2.2.2.2.2.2.2.2.2.2.2.2.2.2.2.2.2.2.2.2.2.2.2.1
@[simp] theorem runMagFusions_doGsf (s : St) : (runMagFusions s).doGsf = s.doGsf := (runMagFusions_frame s).2.2.2.2.2.2.2.2.2.2.2.2.2.2.2.2.2.2.2.2.2.2.2.2.2.2.2.2.2.1
@[simp] theorem runMagFusions_gsfTime (s : St) : (runMagFusions s).gsfTime = s.gsfTime := (runMagFusions_frame s).2.2.2.2.2.2.2.2.2.2.2.2.2.2.2.2.2.2.2.2.2.2.2.2.2.2.2.2.2.2.1
@[simp] theorem runMagFusions_gsfCount (s : St) : (runMagFusions s).gsfCount = s.gsfCount := (runMagFusions_frame s).2.2.2.2.2.2.2.2.2.2.2.2.2.2.2.2.2.2.2.2.2.2.2.2.2.2.2.2.2.2.2.1
@[simp] theorem runMagFusions_tPos (s : St) : (runMagFusions s).tPos = s.tPos := (runMagFusions_frame s).2.2.2.2.2.2.2.2.2.2.2.2.2.2.2.2.2.2.2.2.2.2.2.2.2.2.2.2.2.2.2.2.1
@[simp] theorem runMagFusions_tDelpos (s : St) : (runMagFusions s).tDelpos = s.tDelpos := (runMagFusions_frame s).2.2.2.2.2.2.2.2.2.2.2.2.2.2.2.2.2.2.2.2.2.2.2.2.2.2.2.2.2.2.2.2.2.1
@[simp] theorem runMagFusions_tVel (s : St) : (runMagFusions s).tVel = s.tVel := (runMagFusions_frame s).2.2.2.2.2.2.2.2.2.2.2.2.2.2.2.2.2.2.2.2.2.2.2.2.2.2.2.2.2.2.2.2.2.2.1
@[simp] theorem runMagFusions_tOf (s : St) : (runMagFusions s).tOf = s.tOf := (runMagFusions_frame s).2.2.2.2.2.2.2.2.2.2.2.2.2.2.2.2.2.2.2.2.2.2.2.2.2.2.2.2.2.2.2.2.2.2.2.1
@[simp] theorem runMagFusions_tBeta (s : St) : (runMagFusions s).tBeta = s.tBeta := (runMagFusions_frame s).2.2.2.2.2.2.2.2.2.2.2.2.2.2.2.2.2.2.2.2.2.2.2.2.2.2.2.2.2.2.2.2.2.2.2.2.1
@[simp] theorem runMagFusions_tArsp (s : St) : (runMagFusions s).tArsp = s.tArsp := (runMagFusions_frame s).2.2.2.2.2.2.2.2.2.2.2.2.2.2.2.2.2.2.2.2.2.2.2.2.2.2.2.2.2.2.2.2.2.2.2.2.2.1
@[simp] theorem runMagFusions_tFake (s : St) : (runMagFusions s).tFake = s.tFake := (runMagFusions_frame s).2.2.2.2.2.2.2.2.2.2.2.2.2.2.2.2.2.2.2.2.2.2.2.2.2.2.2.2.2.2.2.2.2.2.2.2.2.2.1
@[simp] theorem runMagFusions_tGpsYaw (s : St) : (runMagFusions s).tGpsYaw = s.tGpsYaw := (runMagFusions_frame s).2.2.2.2.2.2.2.2.2.2.2.2.2.2.2.2.2.2.2.2.2.2.2.2.2.2.2.2.2.2.2.2.2.2.2.2.2.2.2.1
@[simp] theorem runMagFusions_hposPrev (s : St) : (runMagFusions s).hposPrev = s.hposPrev := (runMagFusions_frame s).2.2.2.2.2.2.2.2.2.2.2.2.2.2.2.2.2.2.2.2.2.2.2.2.2.2.2.2.2.2.2.2.2.2.2.2.2.2.2.2.1
@[simp] theorem runMagFusions_hposOdom (s : St) : (runMagFusions s).hposOdom = s.hposOdom := (runMagFusions_frame s).2.2.2.2.2.2.2.2.2.2.2.2.2.2.2.2.2.2.2.2.2.2.2.2.2.2.2.2.2.2.2.2.2.2.2.2.2.2.2.2.2.1
@[simp] theorem runMagFusions_synth (s : St) : (runMagFusions s).synth = s.synth := (runMagFusions_frame s).2.2.2.2.2.2.2.2.2.2.2.2.2.2.2.2.2.2.2.2.2.2.2.2.2.2.2.2.2.2.2.2.2.2.2.2.2.2.2.2.2.2.1
@[simp] theorem runMagFusions_flowReady (s : St) : (runMagFusions s).flowReady = s.flowReady := (runMagFusions_frame s).2.2.2.2.2.2.2.2.2.2.2.2.2.2.2.2.2.2.2.2.2.2.2.2.2.2.2.2.2.2.2.2.2.2.2.2.2.2.2.2.2.2.2.1
@[simp] theorem runMagFusions_flowInh (s : St) : (runMagFusions s).flowInh = s.flowInh := (runMagFusions_frame s).2.2.2.2.2.2.2.2.2.2.2.2.2.2.2.2.2.2.2.2.2.2.2.2.2.2.2.2.2.2.2.2.2.2.2.2.2.2.2.2.2.2.2.2.1
@[simp] theorem runMagFusions_tGood (s : St) : (runMagFusions s).tGood = s.tGood := (runMagFusions_frame s).2.2.2.2.2.2.2.2.2.2.2.2.2.2.2.2.2.2.2.2.2.2.2.2.2.2.2.2.2.2.2.2.2.2.2.2.2.2.2.2.2.2.2.2.2.1
@[simp] theorem runMagFusions_tBad (s : St) : (runMagFusions s).tBad = s.tBad := (runMagFusions_frame s).2.2.2.2.2.2.2.2.2.2.2.2.2.2.2.2.2.2.2.2.2.2.2.2.2.2.2.2.2.2.2.2.2.2.2.2.2.2.2.2.2.2.2.2.2.2

theorem magWithData_frame (x : In) (s : St) :
    (magWithData x s).tilt = s.tilt ∧ (magWithData x s).yawAlign = s.yawAlign ∧ (magWithData x s).gps = s.gps ∧ (magWithData x s).optFlow = s.optFlow ∧ (magWithData x s).wind = s.wind ∧ (magWithData x s).evPos = s.evPos ∧ (magWithData x s).evVel = s.evVel ∧ (magWithData x s).evYaw = s.evYaw ∧ (magWithData x s).gpsYaw = s.gpsYaw ∧ (magWithData x s).magDist = s.magDist ∧ (magWithData x s).fuseAspd = s.fuseAspd ∧ (magWithData x s).nonMagPrev = s.nonMagPrev ∧ (magWithData x s).gpsYawFaulty = s.gpsYawFaulty ∧ (magWithData x s).doGsf = s.doGsf ∧ (magWithData x s).gsfTime = s.gsfTime ∧ (magWithData x s).gsfCount = s.gsfCount ∧ (magWithData x s).tPos = s.tPos ∧ (magWithData x s).tDelpos = s.tDelpos ∧ (magWithData x s).tVel = s.tVel ∧ (magWithData x s).tOf = s.tOf ∧ (magWithData x s).tBeta = s.tBeta ∧ (magWithData x s).tArsp = s.tArsp ∧ (magWithData x s).tFake = s.tFake ∧ (magWithData x s).tGpsYaw = s.tGpsYaw ∧ (magWithData x s).hposOdom = s.hposOdom ∧ (magWithData x s).synth = s.synth ∧ (magWithData x s).flowReady = s.flowReady ∧ (magWithData x s).flowInh = s.flowInh ∧ (magWithData x s).tGood = s.tGood ∧ (magWithData x s).tBad = s.tBad := by
  unfold magWithData; (try dsimp only); split_ifs <;> simp [*]
@[simp] theorem magWithData_tilt (x : In) (s : St) : (magWithData x s).tilt = s.tilt := (magWithData_frame x s).1
@[simp] theorem magWithData_yawAlign (x : In) (s : St) : (magWithData x s).yawAlign = s.yawAlign := (magWithData_frame x s).2.1
@[simp] theorem magWithData_gps (x : In) (s : St) : (magWithData x s).gps = s.gps := (magWithData_frame x s).2.2.1
@[simp] theorem magWithData_optFlow (x : In) (s : St) : (magWithData x s).optFlow = s.optFlow := (magWithData_frame x s).2.2.2.1
@[simp] theorem magWithData_wind (x : In) (s : St) : (magWithData x s).wind = s.wind := (magWithData_frame x s).2.2.2.2.1
@[simp] theorem magWithData_evPos (x : In) (s : St) : (magWithData x s).evPos = s.evPos := (magWithData_frame x s).2.2.2.2.2.1
@[simp] theorem magWithData_evVel (x : In) (s : St) : (magWithData x s).evVel = s.evVel := (magWithData_frame x s).2.2.2.2.2.2.1
@[simp] theorem magWithData_evYaw (x : In) (s : St) : (magWithData x s).evYaw = s.evYaw := (magWithData_frame x s).2.2.2.2.2.2.2.1
@[simp] theorem magWithData_gpsYaw (x : In) (s : St) : (magWithData x s).gpsYaw = s.gpsYaw := (magWithData_frame x s).2.2.2.2.2.2.2.2.1
@[simp] theorem magWithData_magDist (x : In) (s : St) : (magWithData x s).magDist = s.magDist := (magWithData_frame x s).2.2.2.2.2.2.2.2.2.1
@[simp] theorem magWithData_fuseAspd (x : In) (s : St) : (magWithData x s).fuseAspd = s.fuseAspd := (magWithData_frame x s).2.2.2.2.2.2.2.2.2.2.1
@[simp] theorem magWithData_nonMagPrev (x : In) (s : St) : (magWithData x s).nonMagPrev = s.nonMagPrev := (magWithData_frame x s).2.2.2.2.2.2.2.2.2.2.2.1
@[simp] theorem magWithData_gpsYawFaulty (x : In) (s : St) : (magWithData x s).gpsYawFaulty = s.gpsYawFaulty := (magWithData_frame x s).2.2.2.2.2.2.2.2.2.2.2.2.1
@[simp] theorem magWithData_doGsf (x : In) (s : St) : (magWithData x s).doGsf = s.doGsf := (magWithData_frame x s).2.2.2.2.2.2.2.2.2.2.2.2.2.1
@[simp] theorem magWithData_gsfTime (x : In) (s : St) : (magWithData x s).gsfTime = s.gsfTime := (magWithData_frame x s).2.2.2.2.2.2.2.2.2.2.2.2.2.2.1
@[simp] theorem magWithData_gsfCount (x : In) (s : St) : (magWithData x s).gsfCount = s.gsfCount := (magWithData_frame x s).2.2.2.2.2.2.2.2.2.2.2.2.2.2.2.1
@[simp] theorem magWithData_tPos (x : In) (s : St) : (magWithData x s).tPos = s.tPos := (magWithData_frame x s).2.2.2.2.2.2.2.2.2.2.2.2.2.2.2.2.1
@[simp] theorem magWithData_tDelpos (x : In) (s : St) : (magWithData x s).tDelpos = s.tDelpos := (magWithData_frame x s).2.2.2.2.2.2.2.2.2.2.2.2.2.2.2.2.2.1
@[simp] theorem magWithData_tVel (x : In) (s : St) : (magWithData x s).tVel = s.tVel := (magWithData_frame x s).2.2.2.2.2.2.2.2.2.2.2.2.2.2.2.2.2.2.1
@[simp] theorem magWithData_tOf (x : In) (s : St) : (magWithData x s).tOf = s.tOf := (magWithData_frame x s).2.2.2.2.2.2.2.2.2.2.2.2.2.2.2.2.2.2.2.1
@[simp] theorem magWithData_tBeta (x : In) (s : St) : (magWithData x s).tBeta = s.tBeta := (magWithData_frame x s).2.2.2.2.2.2.2.2.2.2.2.2.2.2.2.2.2.2.2.2.1
@[simp] theorem magWithData_tArsp (x : In) (s : St) : (magWithData x s).tArsp = s.tArsp := (magWithData_frame x s).2.2.2.2.2.2.2.2.2.2.2.2.2.2.2.2.2.2.2.2.2.1
@[simp] theorem magWithData_tFake (x : In) (s : St) : (magWithData x s).tFake = s.tFake := (magWithData_frame x s).2.2.2.2.2.2.2.2.2.2.2.2.2.2.2.2.2.2.2.2.2.2.1
@[simp] theorem magWithData_tGpsYaw (x : In) (s : St) : (magWithData x s).tGpsYaw = s.tGpsYaw := (magWithData_frame x s).2.2.2.2.2.2.2.2.2.2.2.2.2.2.2.2.2.2.2.2.2.2.2.1
@[simp] theorem magWithData_hposOdom (x : In) (s : St) : (magWithData x s).hposOdom = s.hposOdom := (magWithData_frame x s).2.2.2.2.2.2.2.2.2.2.2.2.2.2.2.2.2.2.2.2.2.2.2.2.1
@[simp] theorem magWithData_synth (x : In) (s : St) : (magWithData x s).synth = s.synth := (magWithData_frame x s).2.2.2.2.2.2.2.2.2.2.2.2.2.2.2.2.2.2.2.2.2.2.2.2.2.1
@[simp] theorem magWithData_flowReady (x : In) (s : St) : (magWithData x s).flowReady = s.flowReady := (magWithData_frame x s).2.2.2.2.2.2.2.2.2.2.2.2.2.2.2.2.2.2.2.2.2.2.2.2.2.2.1
@[simp] theorem magWithData_flowInh (x : In) (s : St) : (magWithData x s).flowInh = s.flowInh := (magWithData_frame x s).2.2.2.2.2.2.2.2.2.2.2.2.2.2.2.2.2.2.2.2.2.2.2.2.2.2.2.1
@[simp] theorem magWithData_tGood (x : In) (s : St) : (magWithData x s).tGood = s.tGood := (magWithData_frame x s).2.2.2.2.2.2.2.2.2.2.2.2.2.2.2.2.2.2.2.2.2.2.2.2.2.2.2.2.1
@[simp] theorem magWithData_tBad (x : In) (s : St) : (magWithData x s).tBad = s.tBad := (magWithData_frame x s).2.2.2.2.2.2.2.2.2.2.2.2.2.2.2.2.2.2.2.2.2.2.2.2.2.2.2.2.2

theorem magPrepare_frame (x : In) (s : St) :
    (magPrepare x s).tilt = s.tilt ∧ (magPrepare x s).yawAlign = s.yawAlign ∧ (magPrepare x s).gps = s.gps ∧ (magPrepare x s).optFlow = s.optFlow ∧ (magPrepare x s).magHdg = s.magHdg ∧ (magPrepare x s).mag3D = s.mag3D ∧ (magPrepare x s).magDec = s.magDec ∧ (magPrepare x s).wind = s.wind ∧ (magPrepare x s).evPos = s.evPos ∧ (magPrepare x s).evVel = s.evVel ∧ (magPrepare x s).evYaw = s.evYaw ∧ (magPrepare x s).gpsYaw = s.gpsYaw ∧ (magPrepare x s).magFault = s.magFault ∧ (magPrepare x s).fuseAspd = s.fuseAspd ∧ (magPrepare x s).magYawReq = s.magYawReq ∧ (magPrepare x s).magInhReq = s.magInhReq ∧ (magPrepare x s).velposReq = s.velposReq ∧ (magPrepare x s).inhibited = s.inhibited ∧ (magPrepare x s).nonMagPrev = s.nonMagPrev ∧ (magPrepare x s).yawObs = s.yawObs ∧ (magPrepare x s).biasObs = s.biasObs ∧ (magPrepare x s).declCovReset = s.declCovReset ∧ (magPrepare x s).tAlign = s.tAlign ∧ (magPrepare x s).tMov = s.tMov ∧ (magPrepare x s).tNotInh = s.tNotInh ∧ (magPrepare x s).tYaw = s.tYaw ∧ (magPrepare x s).gpsYawFaulty = s.gpsYawFaulty ∧ (magPrepare x s).doGsf = s.doGsf ∧ (magPrepare x s).gsfTime = s.gsfTime ∧ (magPrepare x s).gsfCount = s.gsfCount ∧ (magPrepare x s).tPos = s.tPos ∧ (magPrepare x s).tDelpos = s.tDelpos ∧ (magPrepare x s).tVel = s.tVel ∧ (magPrepare x s).tOf = s.tOf ∧ (magPrepare x s).tBeta = s.tBeta ∧ (magPrepare x s).tArsp = s.tArsp ∧ (magPrepare x s).tFake = s.tFake ∧ (magPrepare x s).tGpsYaw = s.tGpsYaw ∧ (magPrepare x s).hposPrev = s.hposPrev ∧ (magPrepare x s).hposOdom = s.hposOdom ∧ (magPrepare x s).synth = s.synth ∧ (magPrepare x s).flowReady = s.flowReady ∧ (magPrepare x s).flowInh = s.flowInh ∧ (magPrepare x s).tGood = s.tGood ∧ (magPrepare x s).tBad = s.tBad := by
  unfold magPrepare; (try dsimp only); split_ifs <;> simp [*]
@[simp] theorem magPrepare_tilt (x : In) (s : St) : (magPrepare x s).tilt = s.tilt := (magPrepare_frame x s).1
@[simp] theorem magPrepare_yawAlign (x : In) (s : St) : (magPrepare x s).yawAlign = s.yawAlign := (magPrepare_frame x s).2.1
@[simp] theorem magPrepare_gps (x : In) (s : St) : (magPrepare x s).gps = s.gps := (magPrepare_frame x s).2.2.1
@[simp] theorem magPrepare_optFlow (x : In) (s : St) : (magPrepare x s).optFlow = s.optFlow := (magPrepare_frame x s).2.2.2.1
@[simp] theorem magPrepare_magHdg (x : In) (s : St) : (magPrepare x s).magHdg = s.magHdg := (magPrepare_frame x s).2.2.2.2.1
@[simp] theorem magPrepare_mag3D (x : In) (s : St) : (magPrepare x s).mag3D = s.mag3D := (magPrepare_frame x s).2.2.2.2.2.1
@[simp] theorem magPrepare_magDec (x : In) (s : St) : (magPrepare x s).magDec = s.magDec := (magPrepare_frame x s).2.2.2.2.2.2.1
@[simp] theorem magPrepare_wind (x : In) (s : St) : (magPrepare x s).wind = s.wind := (magPrepare_frame x s).2.2.2.2.2.2.2.1
@[simp] theorem magPrepare_evPos (x : In) (s : St) : (magPrepare x s).evPos = s.evPos := (magPrepare_frame x s).2.2.2.2.2.2.2.2.1
@[simp] theorem magPrepare_evVel (x : In) (s : St) : (magPrepare x s).evVel = s.evVel := (magPrepare_frame x s).2.2.2.2.2.2.2.2.2.1
@[simp] theorem magPrepare_evYaw (x : In) (s : St) : (magPrepare x s).evYaw = s.evYaw := (magPrepare_frame x s).2.2.2.2.2.2.2.2.2.2.1
@[simp] theorem magPrepare_gpsYaw (x : In) (s : St) : (magPrepare x s).gpsYaw = s.gpsYaw := (magPrepare_frame x s).2.2.2.2.2.2.2.2.2.2.2.1
@[simp] theorem magPrepare_magFault (x : In) (s : St) : (magPrepare x s).magFault = s.magFault := (magPrepare_frame x s).2.2.2.2.2.2.2.2.2.2.2.2.1
@[simp] theorem magPrepare_fuseAspd (x : In) (s : St) : (magPrepare x s).fuseAspd = s.fuseAspd := (magPrepare_frame x s).2.2.2.2.2.2.2.2.2.2.2.2.2.1
@[simp] theorem magPrepare_magYawReq (x : In) (s : St) : (magPrepare x s).magYawReq = s.magYawReq := (magPrepare_frame x s).2.2.2.2.2.2.2.2.2.2.2.2.2.2.1
@[simp] theorem magPrepare_magInhReq (x : In) (s : St) : (magPrepare x s).magInhReq = s.magInhReq := (magPrepare_frame x s).2.2.2.2.2.2.2.2.2.2.2.2.2.2.2.1
@[simp] theorem magPrepare_velposReq (x : In) (s : St) : (magPrepare x s).velposReq = s.velposReq := (magPrepare_frame x s).2.2.2.2.2.2.2.2.2.2.2.2.2.2.2.2.1
@[simp] theorem magPrepare_inhibited (x : In) (s : St) : (magPrepare x s).inhibited = s.inhibited := (magPrepare_frame x s).2.2.2.2.2.2.2.2.2.2.2.2.2.2.2.2.2.1
@[simp] theorem magPrepare_nonMagPrev (x : In) (s : St) : (magPrepare x s).nonMagPrev = s.nonMagPrev := (magPrepare_frame x s).2.2.2.2.2.2.2.2.2.2.2.2.2.2.2.2.2.2.1
@[simp] theorem magPrepare_yawObs (x : In) (s : St) : (magPrepare x s).yawObs = s.yawObs := (magPrepare_frame x s).2.2.2.2.2.2.2.2.2.2.2.2.2.2.2.2.2.2.2.1
@[simp] theorem magPrepare_biasObs (x : In) (s : St) : (magPrepare x s).biasObs = s.biasObs := (magPrepare_frame x s).2.2.2.2.2.2.2.2.2.2.2.2.2.2.2.2.2.2.2.2.1
@[simp] theorem magPrepare_declCovReset (x : In) (s : St) : (magPrepare x s).declCovReset = s.declCovReset := (magPrepare_frame x s).2.2.2.2.2.2.2.2.2.2.2.2.2.2.2.2.2.2.2.2.2.1
@[simp] theorem magPrepare_tAlign (x : In) (s : St) : (magPrepare x s).tAlign = s.tAlign := (magPrepare_frame x s).2.2.2.2.2.2.2.2.2.2.2.2.2.2.2.2.2.2.2.2.2.2.1
@[simp] theorem magPrepare_tMov (x : In) (s : St) : (magPrepare x s).tMov = s.tMov := (magPrepare_frame x s).2.2.2.2.2.2.2.2.2.2.2.2.2.2.2.2.2.2.2.2.2.2.2.1
@[simp] theorem magPrepare_tNotInh (x : In) (s : St) : (magPrepare x s).tNotInh = s.tNotInh := (magPrepare_frame x s).2.2.2.2.2.2.2.2.2.2.2.2.2.2.2.2.2.2.2.2.2.2.2.2.1
@[simp] theorem magPrepare_tYaw (x : In) (s : St) : (magPrepare x s).tYaw = s.tYaw := (magPrepare_frame x s).2.2.2.2.2.2.2.2.2.2.2.2.2.2.2.2.2.2.2.2.2.2.2.2.2.1
@[simp] theorem magPrepare_gpsYawFaulty (x : In) (s : St) : (magPrepare x s).gpsYawFaulty = s.gpsYawFaulty := (magPrepare_frame x s).2.2.2.2.2.2.2.2.2.2.2.2.2.2.2.2.2.2.2.2.2.2.2.2.2.2.1
@[simp] theorem magPrepare_doGsf (x : In) (s : St) : (magPrepare x s).doGsf = s.doGsf := (magPrepare_frame x s).2.2.2.2.2.2.2.2.2.2.2.2.2.2.2.2.2.2.2.2.2.2.2.2.2.2.2.1
@[simp] theorem magPrepare_gsfTime (x : In) (s : St) : (magPrepare x s).gsfTime = s.gsfTime := (magPrepare_frame x s).2.2.2.2.2.2.2.2.2.2.2.2.2.2.2.2.2.2.2.2.2.2.2.2.2.2.2.2.1
@[simp] theorem magPrepare_gsfCount (x : In) (s : St) : (magPrepare x s).gsfCount = s.gsfCount := (magPrepare_frame x s).2.2.2.2.2.2.2.2.2.2.2.2.2.2.2.2.2.2.2.2.2.2.2.2.2.2.2.2.2.1
@[simp] theorem magPrepare_tPos (x : In) (s : St) : (magPrepare x s).tPos = s.tPos := (magPrepare_frame x s).2.2.2.2.2.2.2.2.2.2.2.2.2.2.2.2.2.2.2.2.2.2.2.2.2.2.2.2.2.2.1
@[simp] theorem magPrepare_tDelpos (x : In) (s : St) : (magPrepare x s).tDelpos = s.tDelpos := (magPrepare_frame x s).2.2.2.2.2.2.2.2.2.2.2.2.2.2.2.2.2.2.2.2.2.2.2.2.2.2.2.2.2.2.2.1
@[simp] theorem magPrepare_tVel (x : In) (s : St) : (magPrepare x s).tVel = s.tVel := (magPrepare_frame x s).2.2.2.2.2.2.2.2.2.2.2.2.2.2.2.2.2.2.2.2.2.2.2.2.2.2.2.2.2.2.2.2.1
@[simp] theorem magPrepare_tOf (x : In) (s : St) : (magPrepare x s).tOf = s.tOf := (magPrepare_frame x s).2.2.2.2.2.2.2.2.2.2.2.2.2.2.2.2.2.2.2.2.2.2.2.2.2.2.2.2.2.2.2.2.2.1
@[simp] theorem magPrepare_tBeta (x : In) (s : St) : (magPrepare x s).tBeta = s.tBeta := (magPrepare_frame x s).2.2.2.2.2.2.2.2.2.2.2.2.2.2.2.2.2.2.2.2.2.2.2.2.2.2.2.2.2.2.2.2.2.2.1
@[simp] theorem magPrepare_tArsp (x : In) (s : St) : (magPrepare x s).tArsp = s.tArsp := (magPrepare_frame x s).2.2.2.2.2.2.2.2.2.2.2.2.2.2.2.2.2.2.2.2.2.2.2.2.2.2.2.2.2.2.2.2.2.2.2.1
@[simp] theorem magPrepare_tFake (x : In) (s : St) : (magPrepare x s).tFake = s.tFake := (magPrepare_frame x s).2.2.2.2.2.2.2.2.2.2.2.2.2.2.2.2.2.2.2.2.2.2.2.2.2.2.2.2.2.2.2.2.2.2.2.2.1
@[simp] theorem magPrepare_tGpsYaw (x : In) (s : St) : (magPrepare x s).tGpsYaw = s.tGpsYaw := (magPrepare_frame x s).2.2.2.2.2.2.2.2.2.2.2.2.2.2.2.2.2.2.2.2.2.2.2.2.2.2.2.2.2.2.2.2.2.2.2.2.2.1
@[simp] theorem magPrepare_hposPrev (x : In) (s : St) : (magPrepare x s).hposPrev = s.hposPrev := (magPrepare_frame x s).2.2.2.2.2.2.2.2.2.2.2.2.2.2.2.2.2.2.2.2.2.2.2.2.2.2.2.2.2.2.2.2.2.2.2.2.2.2.1
@[simp] theorem magPrepare_hposOdom (x : In) (s : St) : (magPrepare x s).hposOdom = s.hposOdom := (magPrepare_frame x s).2.2.2.2.2.2.2.2.2.2.2.2.2.2.2.2.2.2.2.2.2.2.2.2.2.2.2.2.2.2.2.2.2.2.2.2.2.2.2.1
@[simp] theorem magPrepare_synth (x : In) (s : St) : (magPrepare x s).synth = s.synth := (magPrepare_frame x s).2.2.2.2.2.2.2.2.2.2.2.2.2.2.2.2.2.2.2.2.2.2.2.2.2.2.2.2.2.2.2.2.2.2.2.2.2.2.2.2.1
@[simp] theorem magPrepare_flowReady (x : In) (s : St) : (magPrepare x s).flowReady = s.flowReady := (magPrepare_frame x s).2.2.2.2.2.2.2.2.2.2.2.2.2.2.2.2.2.2.2.2.2.2.2.2.2.2.2.2.2.2.2.2.2.2.2.2.2.2.2.2.2.1
@[simp] theorem magPrepare_flowInh (x : In) (s : St) : (magPrepare x s).flowInh = s.flowInh := (magPrepare_frame x s).2.2.2.2.2.2.2.2.2.2.2.2.2.2.2.2.2.2.2.2.2.2.2.2.2.2.2.2.2.2.2.2.2.2.2.2.2.2.2.2.2.2.1
@[simp] theorem magPrepare_tGood (x : In) (s : St) : (magPrepare x s).tGood = s.tGood := (magPrepare_frame x s).2.2.2.2.2.2.2.2.2.2.2.2.2.2.2.2.2.2.2.2.2.2.2.2.2.2.2.2.2.2.2.2.2.2.2.2.2.2.2.2.2.2.2.1
@[simp] theorem magPrepare_tBad (x : In) (s : St) : (magPrepare x s).tBad = s.tBad := (magPrepare_frame x s).2.2.2.2.2.2.2.2.2.2.2.2.2.2.2.2.2.2.2.2.2.2.2.2.2.2.2.2.2.2.2.2.2.2.2.2.2.2.2.2.2.2.2.2

theorem magMain_frame (x : In) (s : St) :
    (magMain x s).tilt = s.tilt ∧ (magMain x s).yawAlign = s.yawAlign ∧ (magMain x s).gps = s.gps ∧ (magMain x s).optFlow = s.optFlow ∧ (magMain x s).wind = s.wind ∧ (magMain x s).evPos = s.evPos ∧ (magMain x s).evVel = s.evVel ∧ (magMain x s).evYaw = s.evYaw ∧ (magMain x s).gpsYaw = s.gpsYaw ∧ (magMain x s).fuseAspd = s.fuseAspd ∧ (magMain x s).gpsYawFaulty = s.gpsYawFaulty ∧ (magMain x s).doGsf = s.doGsf ∧ (magMain x s).gsfTime = s.gsfTime ∧ (magMain x s).gsfCount = s.gsfCount ∧ (magMain x s).tPos = s.tPos ∧ (magMain x s).tDelpos = s.tDelpos ∧ (magMain x s).tVel = s.tVel ∧ (magMain x s).tOf = s.tOf ∧ (magMain x s).tBeta = s.tBeta ∧ (magMain x s).tArsp = s.tArsp ∧ (magMain x s).tFake = s.tFake ∧ (magMain x s).tGpsYaw = s.tGpsYaw ∧ (magMain x s).hposOdom = s.hposOdom ∧ (magMain x s).synth = s.synth ∧ (magMain x s).flowReady = s.flowReady ∧ (magMain x s).flowInh = s.flowInh ∧ (magMain x s).tGood = s.tGood ∧ (magMain x s).tBad = s.tBad := by
  unfold magMain; (try dsimp only); split_ifs <;> simp [*]
@[simp] theorem magMain_tilt (x : In) (s : St) : (magMain x s).tilt = s.tilt := (magMain_frame x s).1
@[simp] theorem magMain_yawAlign (x : In) (s : St) : (magMain x s).yawAlign = s.yawAlign := (magMain_frame x s).2.1
@[simp] theorem magMain_gps (x : In) (s : St) : (magMain x s).gps = s.gps := (magMain_frame x s).2.2.1
@[simp] theorem magMain_optFlow (x : In) (s : St) : (magMain x s).optFlow = s.optFlow := (magMain_frame x s).2.2.2.1
@[simp] theorem magMain_wind (x : In) (s : St) : (magMain x s).wind = s.wind := (magMain_frame x s).2.2.2.2.1
@[simp] theorem magMain_evPos (x : In) (s : St) : (magMain x s).evPos = s.evPos := (magMain_frame x s).2.2.2.2.2.1
@[simp] theorem magMain_evVel (x : In) (s : St) : (magMain x s).evVel = s.evVel := (magMain_frame x s).2.2.2.2.2.2.1
@[simp] theorem magMain_evYaw (x : In) (s : St) : (magMain x s).evYaw = s.evYaw := (magMain_frame x s).2.2.2.2.2.2.2.1
@[simp] theorem magMain_gpsYaw (x : In) (s : St) : (magMain x s).gpsYaw = s.gpsYaw := (magMain_frame x s).2.2.2.2.2.2.2.2.1
@[simp] theorem magMain_fuseAspd (x : In) (s : St) : (magMain x s).fuseAspd = s.fuseAspd := (magMain_frame x s).2.2.2.2.2.2.2.2.2.1
@[simp] theorem magMain_gpsYawFaulty (x : In) (s : St) : (magMain x s).gpsYawFaulty = s.gpsYawFaulty := (magMain_frame x s).2.2.2.2.2.2.2.2.2.2.1
@[simp] theorem magMain_doGsf (x : In) (s : St) : (magMain x s).doGsf = s.doGsf := (magMain_frame x s).2.2.2.2.2.2.2.2.2.2.2.1
@[simp] theorem magMain_gsfTime (x : In) (s : St) : (magMain x s).gsfTime = s.gsfTime := (magMain_frame x s).2.2.2.2.2.2.2.2.2.2.2.2.1
@[simp] theorem magMain_gsfCount (x : In) (s : St) : (magMain x s).gsfCount = s.gsfCount := (magMain_frame x s).2.2.2.2.2.2.2.2.2.2.2.2.2.1
@[simp] theorem magMain_tPos (x : In) (s : St) : (magMain x s).tPos = s.tPos := (magMain_frame x s).2.2.2.2.2.2.2.2.2.2.2.2.2.2.1
@[simp] theorem magMain_tDelpos (x : In) (s : St) : (magMain x s).tDelpos = s.tDelpos := (magMain_frame x s).2.2.2.2.2.2.2.2.2.2.2.2.2.2.2.1
@[simp] theorem magMain_tVel (x : In) (s : St) : (magMain x s).tVel = s.tVel := (magMain_frame x s).2.2.2.2.2.2.2.2.2.2.2.2.2.2.2.2.1
@[simp] theorem magMain_tOf (x : In) (s : St) : (magMain x s).tOf = s.tOf := (magMain_frame x s).2.2.2.2.2.2.2.2.2.2.2.2.2.2.2.2.2.1
@[simp] theorem magMain_tBeta (x : In) (s : St) : (magMain x s).tBeta = s.tBeta := (magMain_frame x s).2.2.2.2.2.2.2.2.2.2.2.2.2.2.2.2.2.2.1
@[simp] theorem magMain_tArsp (x : In) (s : St) : (magMain x s).tArsp = s.tArsp := (magMain_frame x s).2.2.2.2.2.2.2.2.2.2.2.2.2.2.2.2.2.2.2.1
@[simp] theorem magMain_tFake (x : In) (s : St) : (magMain x s).tFake = s.tFake := (magMain_frame x s).2.2.2.2.2.2.2.2.2.2.2.2.2.2.2.2.2.2.2.2.1
@[simp] theorem magMain_tGpsYaw (x : In) (s : St) : (magMain x s).tGpsYaw = s.tGpsYaw := (magMain_frame x s).2.2.2.2.2.2.2.2.2.2.2.2.2.2.2.2.2.2.2.2.2.1
@[simp] theorem magMain_hposOdom (x : In) (s : St) : (magMain x s).hposOdom = s.hposOdom := (magMain_frame x s).2.2.2.2.2.2.2.2.2.2.2.2.2.2.2.2.2.2.2.2.2.2.1
@[simp] theorem magMain_synth (x : In) (s : St) : (magMain x s).synth = s.synth := (magMain_frame x s).2.2.2.2.2.2.2.2.2.2.2.2.2.2.2.2.2.2.2.2.2.2.2.1
@[simp] theorem magMain_flowReady (x : In) (s : St) : (magMain x s).flowReady = s.flowReady := (magMain_frame x s).2.2.2.2.2.2.2.2.2.2.2.2.2.2.2.2.2.2.2.2.2.2.2.2.1
@[simp] theorem magMain_flowInh (x : In) (s : St) : (magMain x s).flowInh = s.flowInh := (magMain_frame x s).2.2.2.2.2.2.2.2.2.2.2.2.2.2.2.2.2.2.2.2.2.2.2.2.2.1
@[simp] theorem magMain_tGood (x : In) (s : St) : (magMain x s).tGood = s.tGood := (magMain_frame x s).2.2.2.2.2.2.2.2.2.2.2.2.2.2.2.2.2.2.2.2.2.2.2.2.2.2.1
@[simp] theorem magMain_tBad (x : In) (s : St) : (magMain x s).tBad = s.tBad := (magMain_frame x s).2.2.2.2.2.2.2.2.2.2.2.2.2.2.2.2.2.2.2.2.2.2.2.2.2.2.2

theorem controlMag_frame (x : In) (s : St) :
    (controlMag x s).tilt = s.tilt ∧ (controlMag x s).yawAlign = s.yawAlign ∧ (controlMag x s).gps = s.gps ∧ (controlMag x s).optFlow = s.optFlow ∧ (controlMag x s).wind = s.wind ∧ (controlMag x s).evPos = s.evPos ∧ (controlMag x s).evVel = s.evVel ∧ (controlMag x s).evYaw = s.evYaw ∧ (controlMag x s).gpsYaw = s.gpsYaw ∧ (controlMag x s).fuseAspd = s.fuseAspd ∧ (controlMag x s).gpsYawFaulty = s.gpsYawFaulty ∧ (controlMag x s).doGsf = s.doGsf ∧ (controlMag x s).gsfTime = s.gsfTime ∧ (controlMag x s).gsfCount = s.gsfCount ∧ (controlMag x s).tPos = s.tPos ∧ (controlMag x s).tDelpos = s.tDelpos ∧ (controlMag x s).tVel = s.tVel ∧ (controlMag x s).tOf = s.tOf ∧ (controlMag x s).tBeta = s.tBeta ∧ (controlMag x s).tArsp = s.tArsp ∧ (controlMag x s).tFake = s.tFake ∧ (controlMag x s).tGpsYaw = s.tGpsYaw ∧ (controlMag x s).hposOdom = s.hposOdom ∧ (controlMag x s).synth = s.synth ∧ (controlMag x s).flowReady = s.flowReady ∧ (controlMag x s).flowInh = s.flowInh ∧ (controlMag x s).tGood = s.tGood ∧ (controlMag x s).tBad = s.tBad := by
  unfold controlMag; (try dsimp only); split_ifs <;> simp [*]
@[simp] theorem controlMag_tilt (x : In) (s : St) : (controlMag x s).tilt = s.tilt := (controlMag_frame x s).1
@[simp] theorem controlMag_yawAlign (x : In) (s : St) : (controlMag x s).yawAlign = s.yawAlign := (controlMag_frame x s).2.1
@[simp] theorem controlMag_gps (x : In) (s : St) : (controlMag x s).gps = s.gps := (controlMag_frame x s).2.2.1
@[simp] theorem controlMag_optFlow (x : In) (s : St) : (controlMag x s).optFlow = s.optFlow := (controlMag_frame x s).2.2.2.1
@[simp] theorem controlMag_wind (x : In) (s : St) : (controlMag x s).wind = s.wind := (controlMag_frame x s).2.2.2.2.1
@[simp] theorem controlMag_evPos (x : In) (s : St) : (controlMag x s).evPos = s.evPos := (controlMag_frame x s).2.2.2.2.2.1
@[simp] theorem controlMag_evVel (x : In) (s : St) : (controlMag x s).evVel = s.evVel := (controlMag_frame x s).2.2.2.2.2.2.1
@[simp] theorem controlMag_evYaw (x : In) (s : St) : (controlMag x s).evYaw = s.evYaw := (controlMag_frame x s).2.2.2.2.2.2.2.1
@[simp] theorem controlMag_gpsYaw (x : In) (s : St) : (controlMag x s).gpsYaw = s.gpsYaw := (controlMag_frame x s).2.2.2.2.2.2.2.2.1
@[simp] theorem controlMag_fuseAspd (x : In) (s : St) : (controlMag x s).fuseAspd = s.fuseAspd := (controlMag_frame x s).2.2.2.2.2.2.2.2.2.1
@[simp] theorem controlMag_gpsYawFaulty (x : In) (s : St) : (controlMag x s).gpsYawFaulty = s.gpsYawFaulty := (controlMag_frame x s).2.2.2.2.2.2.2.2.2.2.1
@[simp] theorem controlMag_doGsf (x : In) (s : St) : (controlMag x s).doGsf = s.doGsf := (controlMag_frame x s).2.2.2.2.2.2.2.2.2.2.2.1
@[simp] theorem controlMag_gsfTime (x : In) (s : St) : (controlMag x s).gsfTime = s.gsfTime := (controlMag_frame x s).2.2.2.2.2.2.2.2.2.2.2.2.1
@[simp] theorem controlMag_gsfCount (x : In) (s : St) : (controlMag x s).gsfCount = s.gsfCount := (controlMag_frame x s).2.2.2.2.2.2.2.2.2.2.2.2.2.1
@[simp] theorem controlMag_tPos (x : In) (s : St) : (controlMag x s).tPos = s.tPos := (controlMag_frame x s).2.2.2.2.2.2.2.2.2.2.2.2.2.2.1
@[simp] theorem controlMag_tDelpos (x : In) (s : St) : (controlMag x s).tDelpos = s.tDelpos := (controlMag_frame x s).2.2.2.2.2.2.2.2.2.2.2.2.2.2.2.1
@[simp] theorem controlMag_tVel (x : In) (s : St) : (controlMag x s).tVel = s.tVel := (controlMag_frame x s).2.2.2.2.2.2.2.2.2.2.2.2.2.2.2.2.1
@[simp] theorem controlMag_tOf (x : In) (s : St) : (controlMag x s).tOf = s.tOf := (controlMag_frame x s).2.2.2.2.2.2.2.2.2.2.2.2.2.2.2.2.2.1
@[simp] theorem controlMag_tBeta (x : In) (s : St) : (controlMag x s).tBeta = s.tBeta := (controlMag_frame x s).2.2.2.2.2.2.2.2.2.2.2.2.2.2.2.2.2.2.1
@[simp] theorem controlMag_tArsp (x : In) (s : St) : (controlMag x s).tArsp = s.tArsp := (controlMag_frame x s).2.2.2.2.2.2.2.2.2.2.2.2.2.2.2.2.2.2.2.1
@[simp] theorem controlMag_tFake (x : In) (s : St) : (controlMag x s).tFake = s.tFake := (controlMag_frame x s).2.2.2.2.2.2.2.2.2.2.2.2.2.2.2.2.2.2.2.2.1
@[simp] theorem controlMag_tGpsYaw (x : In) (s : St) : (controlMag x s).tGpsYaw = s.tGpsYaw := (controlMag_frame x s).2.2.2.2.2.2.2.2.2.2.2.2.2.2.2.2.2.2.2.2.2.1
@[simp] theorem controlMag_hposOdom (x : In) (s : St) : (controlMag x s).hposOdom = s.hposOdom := (controlMag_frame x s).2.2.2.2.2.2.2.2.2.2.2.2.2.2.2.2.2.2.2.2.2.2.1
@[simp] theorem controlMag_synth (x : In) (s : St) : (controlMag x s).synth = s.synth := (controlMag_frame x s).2.2.2.2.2.2.2.2.2.2.2.2.2.2.2.2.2.2.2.2.2.2.2.1
@[simp] theorem controlMag_flowReady (x : In) (s : St) : (controlMag x s).flowReady = s.flowReady := (controlMag_frame x s).2.2.2.2.2.2.2.2.2.2.2.2.2.2.2.2.2.2.2.2.2.2.2.2.1
@[simp] theorem controlMag_flowInh (x : In) (s : St) : (controlMag x s).flowInh = s.flowInh := (controlMag_frame x s).2.2.2.2.2.2.2.2.2.2.2.2.2.2.2.2.2.2.2.2.2.2.2.2.2.1
@[simp] theorem controlMag_tGood (x : In) (s : St) : (controlMag x s).tGood = s.tGood := (controlMag_frame x s).2.2.2.2.2.2.2.2.2.2.2.2.2.2.2.2.2.2.2.2.2.2.2.2.2.2.1
@[simp] theorem controlMag_tBad (x : In) (s : St) : (controlMag x s).tBad = s.tBad := (controlMag_frame x s).2.2.2.2.2.2.2.2.2.2.2.2.2.2.2.2.2.2.2.2.2.2.2.2.2.2.2

theorem startGps_frame (s : St) :
    (startGps s).tilt = s.tilt ∧ (startGps s).yawAlign = s.yawAlign ∧ (startGps s).optFlow = s.optFlow ∧ (startGps s).magHdg = s.magHdg ∧ (startGps s).mag3D = s.mag3D ∧ (startGps s).magDec = s.magDec ∧ (startGps s).wind = s.wind ∧ (startGps s).evPos = s.evPos ∧ (startGps s).evVel = s.evVel ∧ (startGps s).evYaw = s.evYaw ∧ (startGps s).gpsYaw = s.gpsYaw ∧ (startGps s).magDist = s.magDist ∧ (startGps s).magFault = s.magFault ∧ (startGps s).fuseAspd = s.fuseAspd ∧ (startGps s).magAligned = s.magAligned ∧ (startGps s).magYawReq = s.magYawReq ∧ (startGps s).magInhReq = s.magInhReq ∧ (startGps s).velposReq = s.velposReq ∧ (startGps s).inhibited = s.inhibited ∧ (startGps s).nonMagPrev = s.nonMagPrev ∧ (startGps s).yawObs = s.yawObs ∧ (startGps s).biasObs = s.biasObs ∧ (startGps s).nBad = s.nBad ∧ (startGps s).declCovReset = s.declCovReset ∧ (startGps s).tAlign = s.tAlign ∧ (startGps s).tMov = s.tMov ∧ (startGps s).tNotInh = s.tNotInh ∧ (startGps s).tYaw = s.tYaw ∧ (startGps s).gpsYawFaulty = s.gpsYawFaulty ∧ (startGps s).doGsf = s.doGsf ∧ (startGps s).gsfTime = s.gsfTime ∧ (startGps s).gsfCount = s.gsfCount ∧ (startGps s).tPos = s.tPos ∧ (startGps s).tDelpos = s.tDelpos ∧ (startGps s).tVel = s.tVel ∧ (startGps s).tOf = s.tOf ∧ (startGps s).tBeta = s.tBeta ∧ (startGps s).tArsp = s.tArsp ∧ (startGps s).tFake = s.tFake ∧ (startGps s).tGpsYaw = s.tGpsYaw ∧ (startGps s).hposPrev = s.hposPrev ∧ (startGps s).hposOdom = s.hposOdom ∧ (startGps s).synth = s.synth ∧ (startGps s).flowReady = s.flowReady ∧ (startGps s).flowInh = s.flowInh ∧ (startGps s).tGood = s.tGood ∧ (startGps s).tBad = s.tBad := by
  unfold startGps; (try dsimp only); split_ifs <;> simp [*]
@[simp] theorem startGps_tilt (s : St) : (startGps s).tilt = s.tilt := (startGps_frame s).1
@[simp] theorem startGps_yawAlign (s : St) : (startGps s).yawAlign = s.yawAlign := (startGps_frame s).2.1
@[simp] theorem startGps_optFlow (s : St) : (startGps s).optFlow = s.optFlow := (startGps_frame s).2.2.1
@[simp] theorem startGps_magHdg (s : St) : (startGps s).magHdg = s.magHdg := (startGps_frame s).2.2.2.1
@[simp] theorem startGps_mag3D (s : St) : (startGps s).mag3D = s.mag3D := (startGps_frame s).2.2.2.2.1
@[simp] theorem startGps_magDec (s : St) : (startGps s).magDec = s.magDec := (startGps_frame s).2.2.2.2.2.1
@[simp] theorem startGps_wind (s : St) : (startGps s).wind = s.wind := (startGps_frame s).2.2.2.2.2.2.1
@[simp] theorem startGps_evPos (s : St) : (startGps s).evPos = s.evPos := (startGps_frame s).2.2.2.2.2.2.2.1
@[simp] theorem startGps_evVel (s : St) : (startGps s).evVel = s.evVel := (startGps_frame s).2.2.2.2.2.2.2.2.1
@[simp] theorem startGps_evYaw (s : St) : (startGps s).evYaw = s.evYaw := (startGps_frame s).2.2.2.2.2.2.2.2.2.1
@[simp] theorem startGps_gpsYaw (s : St) : (startGps s).gpsYaw = s.gpsYaw := (startGps_frame s).2.2.2.2.2.2.2.2.2.2.1
@[simp] theorem startGps_magDist (s : St) : (startGps s).magDist = s.magDist := (startGps_frame s).2.2.2.2.2.2.2.2.2.2.2.1
@[simp] theorem startGps_magFault (s : St) : (startGps s).magFault = s.magFault := (startGps_frame s).2.2.2.2.2.2.2.2.2.2.2.2.1
@[simp] theorem startGps_fuseAspd (s : St) : (startGps s).fuseAspd = s.fuseAspd := (startGps_frame s).2.2.2.2.2.2.2.2.2.2.2.2.2.1
@[simp] theorem startGps_magAligned (s : St) : (startGps s).magAligned = s.magAligned := (startGps_frame s).2.2.2.2.2.2.2.2.2.2.2.2.2.2.1
@[simp] theorem startGps_magYawReq (s : St) : (startGps s).magYawReq = s.magYawReq := (startGps_frame s).2.2.2.2.2.2.2.2.2.2.2.2.2.2.2.1
@[simp] theorem startGps_magInhReq (s : St) : (startGps s).magInhReq = s.magInhReq := (startGps_frame s).2.2.2.2.2.2.2.2.2.2.2.2.2.2.2.2.1
@[simp] theorem startGps_velposReq (s : St) : (startGps s).velposReq = s.velposReq := (startGps_frame s).2.2.2.2.2.2.2.2.2.2.2.2.2.2.2.2.2.1
@[simp] theorem startGps_inhibited (s : St) : (startGps s).inhibited = s.inhibited := (startGps_frame s).2.2.2.2.2.2.2.2.2.2.2.2.2.2.2.2.2.2.1
@[simp] theorem startGps_nonMagPrev (s : St) : (startGps s).nonMagPrev = s.nonMagPrev := (startGps_frame s).2.2.2.2.2.2.2.2.2.2.2.2.2.2.2.2.2.2.2.1
@[simp] theorem startGps_yawObs (s : St) : (startGps s).yawObs = s.yawObs := (startGps_frame s).2.2.2.2.2.2.2.2.2.2.2.2.2.2.2.2.2.2.2.2.1
@[simp] theorem startGps_biasObs (s : St) : (startGps s).biasObs = s.biasObs := (startGps_frame s).2.2.2.2.2.2.2.2.2.2.2.2.2.2.2.2.2.2.2.2.2.1
@[simp] theorem startGps_nBad (s : St) : (startGps s).nBad = s.nBad := (startGps_frame s).2.2.2.2.2.2.2.2.2.2.2.2.2.2.2.2.2.2.2.2.2.2.1
@[simp] theorem startGps_declCovReset (s : St) : (startGps s).declCovReset = s.declCovReset := (startGps_frame s).2.2.2.2.2.2.2.2.2.2.2.2.2.2.2.2.2.2.2.2.2.2.2.1
@[simp] theorem startGps_tAlign (s : St) : (startGps s).tAlign = s.tAlign := (startGps_frame s).2.2.2.2.2.2.2.2.2.2.2.2.2.2.2.2.2.2.2.2.2.2.2.2.1
@[simp] theorem startGps_tMov (s : St) : (startGps s).tMov = s.tMov := (startGps_frame s).2.2.2.2.2.2.2.2.2.2.2.2.2.2.2.2.2.2.2.2.2.2.2.2.2.1
@[simp] theorem startGps_tNotInh (s : St) : (startGps s).tNotInh = s.tNotInh := (startGps_frame s).2.2.2.2.2.2.2.2.2.2.2.2.2.2.2.2.2.2.2.2.2.2.2.2.2.2.1
@[simp] theorem startGps_tYaw (s : St) : (startGps s).tYaw = s.tYaw := (startGps_frame s).2.2.2.2.2.2.2.2.2.2.2.2.2.2.2.2.2.2.2.2.2.2.2.2.2.2.2.1
@[simp] theorem startGps_gpsYawFaulty (s : St) : (startGps s).gpsYawFaulty = s.gpsYawFaulty := (startGps_frame s).2.2.2.2.2.2.2.2.2.2.2.2.2.2.2.2.2.2.2.2.2.2.2.2.2.2.2.2.1
@[simp] theorem startGps_doGsf (s : St) : (startGps s).doGsf = s.doGsf := (startGps_frame s).2.2.2.2.2.2.2.2.2.2.2.2.2.2.2.2.2.2.2.2.2.2.2.2.2.2.2.2.2.1
@[simp] theorem startGps_gsfTime (s : St) : (startGps s).gsfTime = s.gsfTime := (startGps_frame s).2.2.2.2.2.2.2.2.2.2.2.2.2.2.2.2.2.2.2.2.2.2.2.2.2.2.2.2.2.2.1
@[simp] theorem startGps_gsfCount (s : St) : (startGps s).gsfCount = s.gsfCount := (startGps_frame s).2.2.2.2.2.2.2.2.2.2.2.2.2.2.2.2.2.2.2.2.2.2.2.2.2.2.2.2.2.2.2.1
@[simp] theorem startGps_tPos (s : St) : (startGps s).tPos = s.tPos := (startGps_frame s).2.2.2.2.2.2.2.2.2.2.2.2.2.2.2.2.2.2.2.2.2.2.2.2.2.2.2.2.2.2.2.2.1
@[simp] theorem startGps_tDelpos (s : St) : (startGps s).tDelpos = s.tDelpos := (startGps_frame s).2.2.2.2.2.2.2.2.2.2.2.2.2.2.2.2.2.2.2.2.2.2.2.2.2.2.2.2.2.2.2.2.2.1
@[simp] theorem startGps_tVel (s : St) : (startGps s).tVel = s.tVel := (startGps_frame s).2.2.2.2.2.2.2.2.2.2.2.2.2.2.2.2.2.2.2.2.2.2.2.2.2.2.2.2.2.2.2.2.2.2.1
@[simp] theorem startGps_tOf (s : St) : (startGps s).tOf = s.tOf := (startGps_frame s).2.2.2.2.2.2.2.2.2.2.2.2.2.2.2.2.2.2.2.2.2.2.2.2.2.2.2.2.2.2.2.2.2.2.2.1
@[simp] theorem startGps_tBeta (s : St) : (startGps s).tBeta = s.tBeta := (startGps_frame s).2.2.2.2.2.2.2.2.2.2.2.2.2.2.2.2.2.2.2.2.2.2.2.2.2.2.2.2.2.2.2.2.2.2.2.2.1
@[simp] theorem startGps_tArsp (s : St) : (startGps s).tArsp = s.tArsp := (startGps_frame s).2.2.2.2.2.2.2.2.2.2.2.2.2.2.2.2.2.2.2.2.2.2.2.2.2.2.2.2.2.2.2.2.2.2.2.2.2.1
@[simp] theorem startGps_tFake (s : St) : (startGps s).tFake = s.tFake := (startGps_frame s).2.2.2.2.2.2.2.2.2.2.2.2.2.2.2.2.2.2.2.2.2.2.2.2.2.2.2.2.2.2.2.2.2.2.2.2.2.2.1
@[simp] theorem startGps_tGpsYaw (s : St) : (startGps s).tGpsYaw = s.tGpsYaw := (startGps_frame s).2.2.2.2.2.2.2.2.2.2.2.2.2.2.2.2.2.2.2.2.2.2.2.2.2.2.2.2.2.2.2.2.2.2.2.2.2.2.2.1
@[simp] theorem startGps_hposPrev (s : St) : (startGps s).hposPrev = s.hposPrev := (startGps_frame s).2.2.2.2.2.2.2.2.2.2.2.2.2.2.2.2.2.2.2.2.2.2.2.2.2.2.2.2.2.2.2.2.2.2.2.2.2.2.2.2.1
@[simp] theorem startGps_hposOdom (s : St) : (startGps s).hposOdom = s.hposOdom := (startGps_frame s).2.2.2.2.2.2.2.2.2.2.2.2.2.2.2.2.2.2.2.2.2.2.2.2.2.2.2.2.2.2.2.2.2.2.2.2.2.2.2.2.2.1
@[simp] theorem startGps_synth (s : St) : (startGps s).synth = s.synth := (startGps_frame s).2.2.2.2.2.2.2.2.2.2.2.2.2.2.2.2.2.2.2.2.2.2.2.2.2.2.2.2.2.2.2.2.2.2.2.2.2.2.2.2.2.2.1
@[simp] theorem startGps_flowReady (s : St) : (startGps s).flowReady = s.flowReady := (startGps_frame s).2.2.2.2.2.2.2.2.2.2.2.2.2.2.2.2.2.2.2.2.2.2.2.2.2.2.2.2.2.2.2.2.2.2.2.2.2.2.2.2.2.2.2.1
@[simp] theorem startGps_flowInh (s : St) : (startGps s).flowInh = s.flowInh := (startGps_frame s).2.2.2.2.2.2.2.2.2.2.2.2.2.2.2.2.2.2.2.2.2.2.2.2.2.2.2.2.2.2.2.2.2.2.2.2.2.2.2.2.2.2.2.2.1
@[simp] theorem startGps_tGood (s : St) : (startGps s).tGood = s.tGood := (startGps_frame s).2.2.2.2.2.2.2.2.2.2.2.2.2.2.2.2.2.2.2.2.2.2.2.2.2.2.2.2.2.2.2.2.2.2.2.2.2.2.2.2.2.2.2.2.2.1
@[simp] theorem startGps_tBad (s : St) : (startGps s).tBad = s.tBad := (startGps_frame s).2.2.2.2.2.2.2.2.2.2.2.2.2.2.2.2.2.2.2.2.2.2.2.2.2.2.2.2.2.2.2.2.2.2.2.2.2.2.2.2.2.2.2.2.2.2

theorem stopGps_frame (s : St) :
    (stopGps s).tilt = s.tilt ∧ (stopGps s).yawAlign = s.yawAlign ∧ (stopGps s).optFlow = s.optFlow ∧ (stopGps s).magHdg = s.magHdg ∧ (stopGps s).mag3D = s.mag3D ∧ (stopGps s).magDec = s.magDec ∧ (stopGps s).wind = s.wind ∧ (stopGps s).evPos = s.evPos ∧ (stopGps s).evVel = s.evVel ∧ (stopGps s).evYaw = s.evYaw ∧ (stopGps s).magDist = s.magDist ∧ (stopGps s).magFault = s.magFault ∧ (stopGps s).fuseAspd = s.fuseAspd ∧ (stopGps s).magAligned = s.magAligned ∧ (stopGps s).magYawReq = s.magYawReq ∧ (stopGps s).magInhReq = s.magInhReq ∧ (stopGps s).velposReq = s.velposReq ∧ (stopGps s).inhibited = s.inhibited ∧ (stopGps s).nonMagPrev = s.nonMagPrev ∧ (stopGps s).yawObs = s.yawObs ∧ (stopGps s).biasObs = s.biasObs ∧ (stopGps s).nBad = s.nBad ∧ (stopGps s).declCovReset = s.declCovReset ∧ (stopGps s).tAlign = s.tAlign ∧ (stopGps s).tMov = s.tMov ∧ (stopGps s).tNotInh = s.tNotInh ∧ (stopGps s).tYaw = s.tYaw ∧ (stopGps s).gpsYawFaulty = s.gpsYawFaulty ∧ (stopGps s).doGsf = s.doGsf ∧ (stopGps s).gsfTime = s.gsfTime ∧ (stopGps s).gsfCount = s.gsfCount ∧ (stopGps s).tPos = s.tPos ∧ (stopGps s).tDelpos = s.tDelpos ∧ (stopGps s).tVel = s.tVel ∧ (stopGps s).tOf = s.tOf ∧ (stopGps s).tBeta = s.tBeta ∧ (stopGps s).tArsp = s.tArsp ∧ (stopGps s).tFake = s.tFake ∧ (stopGps s).tGpsYaw = s.tGpsYaw ∧ (stopGps s).hposPrev = s.hposPrev ∧ (stopGps s).hposOdom = s.hposOdom ∧ (stopGps s).synth = s.synth ∧ (stopGps s).flowReady = s.flowReady ∧ (stopGps s).flowInh = s.flowInh ∧ (stopGps s).tGood = s.tGood ∧ (stopGps s).tBad = s.tBad := by
  unfold stopGps; simp
@[simp] theorem stopGps_tilt (s : St) : (stopGps s).tilt = s.tilt := (stopGps_frame s).1
@[simp] theorem stopGps_yawAlign (s : St) : (stopGps s).yawAlign = s.yawAlign := (stopGps_frame s).2.1
@[simp] theorem stopGps_optFlow (s : St) : (stopGps s).optFlow = s.optFlow := (stopGps_frame s).2.2.1
@[simp] theorem stopGps_magHdg (s : St) : (stopGps s).magHdg = s.magHdg := (stopGps_frame s).2.2.2.1
@[simp] theorem stopGps_mag3D (s : St) : (stopGps s).mag3D = s.mag3D := (stopGps_frame s).2.2.2.2.1
@[simp] theorem stopGps_magDec (s : St) : (stopGps s).magDec = s.magDec := (stopGps_frame s).2.2.2.2.2.1
@[simp] theorem stopGps_wind (s : St) : (stopGps s).wind = s.wind := (stopGps_frame s).2.2.2.2.2.2.1
@[simp] theorem stopGps_evPos (s : St) : (stopGps s).evPos = s.evPos := (stopGps_frame s).2.2.2.2.2.2.2.1
@[simp] theorem stopGps_evVel (s : St) : (stopGps s).evVel = s.evVel := (stopGps_frame s).2.2.2.2.2.2.2.2.1
@[simp] theorem stopGps_evYaw (s : St) : (stopGps s).evYaw = s.evYaw := (stopGps_frame s).2.2.2.2.2.2.2.2.2.1
@[simp] theorem stopGps_magDist (s : St) : (stopGps s).magDist = s.magDist := (stopGps_frame s).2.2.2.2.2.2.2.2.2.2.1
@[simp] theorem stopGps_magFault (s : St) : (stopGps s).magFault = s.magFault := (stopGps_frame s).2.2.2.2.2.2.2.2.2.2.2.1
@[simp] theorem stopGps_fuseAspd (s : St) : (stopGps s).fuseAspd = s.fuseAspd := (stopGps_frame s).2.2.2.2.2.2.2.2.2.2.2.2.1
@[simp] theorem stopGps_magAligned (s : St) : (stopGps s).magAligned = s.magAligned := (stopGps_frame s).2.2.2.2.2.2.2.2.2.2.2.2.2.1
@[simp] theorem stopGps_magYawReq (s : St) : (stopGps s).magYawReq = s.magYawReq := (stopGps_frame s).2.2.2.2.2.2.2.2.2.2.2.2.2.2.1
@[simp] theorem stopGps_magInhReq (s : St) : (stopGps s).magInhReq = s.magInhReq := (stopGps_frame s).2.2.2.2.2.2.2.2.2.2.2.2.2.2.2.1
@[simp] theorem stopGps_velposReq (s : St) : (stopGps s).velposReq = s.velposReq := (stopGps_frame s).2.2.2.2.2.2.2.2.2.2.2.2.2.2.2.2.1
@[simp] theorem stopGps_inhibited (s : St) : (stopGps s).inhibited = s.inhibited := (stopGps_frame s).2.2.2.2.2.2.2.2.2.2.2.2.2.2.2.2.2.1
@[simp] theorem stopGps_nonMagPrev (s : St) : (stopGps s).nonMagPrev = s.nonMagPrev := (stopGps_frame s).2.2.2.2.2.2.2.2.2.2.2.2.2.2.2.2.2.2.1
@[simp] theorem stopGps_yawObs (s : St) : (stopGps s).yawObs = s.yawObs := (stopGps_frame s).2.2.2.2.2.2.2.2.2.2.2.2.2.2.2.2.2.2.2.1
@[simp] theorem stopGps_biasObs (s : St) : (stopGps s).biasObs = s.biasObs := (stopGps_frame s).2.2.2.2.2.2.2.2.2.2.2.2.2.2.2.2.2.2.2.2.1
@[simp] theorem stopGps_nBad (s : St) : (stopGps s).nBad = s.nBad := (stopGps_frame s).2.2.2.2.2.2.2.2.2.2.2.2.2.2.2.2.2.2.2.2.2.1
@[simp] theorem stopGps_declCovReset (s : St) : (stopGps s).declCovReset = s.declCovReset := (stopGps_frame s).2.2.2.2.2.2.2.2.2.2.2.2.2.2.2.2.2.2.2.2.2.2.1
@[simp] theorem stopGps_tAlign (s : St) : (stopGps s).tAlign = s.tAlign := (stopGps_frame s).2.2.2.2.2.2.2.2.2.2.2.2.2.2.2.2.2.2.2.2.2.2.2.1
@[simp] theorem stopGps_tMov (s : St) : (stopGps s).tMov = s.tMov := (stopGps_frame s).2.2.2.2.2.2.2.2.2.2.2.2.2.2.2.2.2.2.2.2.2.2.2.2.1
@[simp] theorem stopGps_tNotInh (s : St) : (stopGps s).tNotInh = s.tNotInh := (stopGps_frame s).2.2.2.2.2.2.2.2.2.2.2.2.2.2.2.2.2.2.2.2.2.2.2.2.2.1
@[simp] theorem stopGps_tYaw (s : St) : (stopGps s).tYaw = s.tYaw := (stopGps_frame s).2.2.2.2.2.2.2.2.2.2.2.2.2.2.2.2.2.2.2.2.2.2.2.2.2.2.1
@[simp] theorem stopGps_gpsYawFaulty (s : St) : (stopGps s).gpsYawFaulty = s.gpsYawFaulty := (stopGps_frame s).2.2.2.2.2.2.2.2.2.2.2.2.2.2.2.2.2.2.2.2.2.2.2.2.2.2.2.1
@[simp] theorem stopGps_doGsf (s : St) : (stopGps s).doGsf = s.doGsf := (stopGps_frame s).2.2.2.2.2.2.2.2.2.2.2.2.2.2.2.2.2.2.2.2.2.2.2.2.2.2.2.2.1
@[simp] theorem stopGps_gsfTime (s : St) : (stopGps s).gsfTime = s.gsfTime := (stopGps_frame s).2.2.2.2.2.2.2.2.2.2.2.2.2.2.2.2.2.2.2.2.2.2.2.2.2.2.2.2.2.1
@[simp] theorem stopGps_gsfCount (s : St) : (stopGps s).gsfCount = s.gsfCount := (stopGps_frame s).2.2.2.2.2.2.2.2.2.2.2.2.2.2.2.2.2.2.2.2.2.2.2.2.2.2.2.2.2.2.1
@[simp] theorem stopGps_tPos (s : St) : (stopGps s).tPos = s.tPos := (stopGps_frame s).2.2.2.2.2.2.2.2.2.2.2.2.2.2.2.2.2.2.2.2.2.2.2.2.2.2.2.2.2.2.2.1
@[simp] theorem stopGps_tDelpos (s : St) : (stopGps s).tDelpos = s.tDelpos := (stopGps_frame s).2.2.2.2.2.2.2.2.2.2.2.2.2.2.2.2.2.2.2.2.2.2.2.2.2.2.2.2.2.2.2.2.1
@[simp] theorem stopGps_tVel (s : St) : (stopGps s).tVel = s.tVel := (stopGps_frame s).2.2.2.2.2.2.2.2.2.2.2.2.2.2.2.2.2.2.2.2.2.2.2.2.2.2.2.2.2.2.2.2.2.1
@[simp] theorem stopGps_tOf (s : St) : (stopGps s).tOf = s.tOf := (stopGps_frame s).2.2.2.2.2.2.2.2.2.2.2.2.2.2.2.2.2.2.2.2.2.2.2.2.2.2.2.2.2.2.2.2.2.2.1
@[simp] theorem stopGps_tBeta (s : St) : (stopGps s).tBeta = s.tBeta := (stopGps_frame s).2.2.2.2.2.2.2.2.2.2.2.2.2.2.2.2.2.2.2.2.2.2.2.2.2.2.2.2.2.2.2.2.2.2.2.1
@[simp] theorem stopGps_tArsp (s : St) : (stopGps s).tArsp = s.tArsp := (stopGps_frame s).2.2.2.2.2.2.2.2.2.2.2.2.2.2.2.2.2.2.2.2.2.2.2.2.2.2.2.2.2.2.2.2.2.2.2.2.1
@[simp] theorem stopGps_tFake (s : St) : (stopGps s).tFake = s.tFake := (stopGps_frame s).2.2.2.2.2.2.2.2.2.2.2.2.2.2.2.2.2.2.2.2.2.2.2.2.2.2.2.2.2.2.2.2.2.2.2.2.2.1
@[simp] theorem stopGps_tGpsYaw (s : St) : (stopGps s).tGpsYaw = s.tGpsYaw := (stopGps_frame s).2.2.2.2.2.2.2.2.2.2.2.2.2.2.2.2.2.2.2.2.2.2.2.2.2.2.2.2.2.2.2.2.2.2.2.2.2.2.1
@[simp] theorem stopGps_hposPrev (s : St) : (stopGps s).hposPrev = s.hposPrev := (stopGps_frame s).2.2.2.2.2.2.2.2.2.2.2.2.2.2.2.2.2.2.2.2.2.2.2.2.2.2.2.2.2.2.2.2.2.2.2.2.2.2.2.1
@[simp] theorem stopGps_hposOdom (s : St) : (stopGps s).hposOdom = s.hposOdom := (stopGps_frame s).2.2.2.2.2.2.2.2.2.2.2.2.2.2.2.2.2.2.2.2.2.2.2.2.2.2.2.2.2.2.2.2.2.2.2.2.2.2.2.2.1
@[simp] theorem stopGps_synth (s : St) : (stopGps s).synth = s.synth := (stopGps_frame s).2.2.2.2.2.2.2.2.2.2.2.2.2.2.2.2.2.2.2.2.2.2.2.2.2.2.2.2.2.2.2.2.2.2.2.2.2.2.2.2.2.1
@[simp] theorem stopGps_flowReady (s : St) : (stopGps s).flowReady = s.flowReady := (stopGps_frame s).2.2.2.2.2.2.2.2.2.2.2.2.2.2.2.2.2.2.2.2.2.2.2.2.2.2.2.2.2.2.2.2.2.2.2.2.2.2.2.2.2.2.1
@[simp] theorem stopGps_flowInh (s : St) : (stopGps s).flowInh = s.flowInh := (stopGps_frame s).2.2.2.2.2.2.2.2.2.2.2.2.2.2.2.2.2.2.2.2.2.2.2.2.2.2.2.2.2.2.2.2.2.2.2.2.2.2.2.2.2.2.2.1
@[simp] theorem stopGps_tGood (s : St) : (stopGps s).tGood = s.tGood := (stopGps_frame s).2.2.2.2.2.2.2.2.2.2.2.2.2.2.2.2.2.2.2.2.2.2.2.2.2.2.2.2.2.2.2.2.2.2.2.2.2.2.2.2.2.2.2.2.1
@[simp] theorem stopGps_tBad (s : St) : (stopGps s).tBad = s.tBad := (stopGps_frame s).2.2.2.2.2.2.2.2.2.2.2.2.2.2.2.2.2.2.2.2.2.2.2.2.2.2.2.2.2.2.2.2.2.2.2.2.2.2.2.2.2.2.2.2.2

theorem startGpsYaw_frame (s : St) :
    (startGpsYaw s).tilt = s.tilt ∧ (startGpsYaw s).yawAlign = s.yawAlign ∧ (startGpsYaw s).gps = s.gps ∧ (startGpsYaw s).optFlow = s.optFlow ∧ (startGpsYaw s).wind = s.wind ∧ (startGpsYaw s).evPos = s.evPos ∧ (startGpsYaw s).evVel = s.evVel ∧ (startGpsYaw s).magDist = s.magDist ∧ (startGpsYaw s).magFault = s.magFault ∧ (startGpsYaw s).fuseAspd = s.fuseAspd ∧ (startGpsYaw s).magAligned = s.magAligned ∧ (startGpsYaw s).magYawReq = s.magYawReq ∧ (startGpsYaw s).magInhReq = s.magInhReq ∧ (startGpsYaw s).velposReq = s.velposReq ∧ (startGpsYaw s).inhibited = s.inhibited ∧ (startGpsYaw s).nonMagPrev = s.nonMagPrev ∧ (startGpsYaw s).yawObs = s.yawObs ∧ (startGpsYaw s).biasObs = s.biasObs ∧ (startGpsYaw s).nBad = s.nBad ∧ (startGpsYaw s).declCovReset = s.declCovReset ∧ (startGpsYaw s).tAlign = s.tAlign ∧ (startGpsYaw s).tMov = s.tMov ∧ (startGpsYaw s).tNotInh = s.tNotInh ∧ (startGpsYaw s).tYaw = s.tYaw ∧ (startGpsYaw s).gpsYawFaulty = s.gpsYawFaulty ∧ (startGpsYaw s).doGsf = s.doGsf ∧ (startGpsYaw s).gsfTime = s.gsfTime ∧ (startGpsYaw s).gsfCount = s.gsfCount ∧ (startGpsYaw s).tPos = s.tPos ∧ (startGpsYaw s).tDelpos = s.tDelpos ∧ (startGpsYaw s).tVel = s.tVel ∧ (startGpsYaw s).tOf = s.tOf ∧ (startGpsYaw s).tBeta = s.tBeta ∧ (startGpsYaw s).tArsp = s.tArsp ∧ (startGpsYaw s).tFake = s.tFake ∧ (startGpsYaw s).tGpsYaw = s.tGpsYaw ∧ (startGpsYaw s).hposPrev = s.hposPrev ∧ (startGpsYaw s).hposOdom = s.hposOdom ∧ (startGpsYaw s).synth = s.synth ∧ (startGpsYaw s).flowReady = s.flowReady ∧ (startGpsYaw s).flowInh = s.flowInh ∧ (startGpsYaw s).tGood = s.tGood ∧ (startGpsYaw s).tBad = s.tBad := by
  unfold startGpsYaw; simp
@[simp] theorem startGpsYaw_tilt (s : St) : (startGpsYaw s).tilt = s.tilt := (startGpsYaw_frame s).1
@[simp] theorem startGpsYaw_yawAlign (s : St) : (startGpsYaw s).yawAlign = s.yawAlign := (startGpsYaw_frame s).2.1
@[simp] theorem startGpsYaw_gps (s : St) : (startGpsYaw s).gps = s.gps := (startGpsYaw_frame s).2.2.1
@[simp] theorem startGpsYaw_optFlow (s : St) : (startGpsYaw s).optFlow = s.optFlow := (startGpsYaw_frame s).2.2.2.1
@[simp] theorem startGpsYaw_wind (s : St) : (startGpsYaw s).wind = s.wind := (startGpsYaw_frame s).2.2.2.2.1
@[simp] theorem startGpsYaw_evPos (s : St) : (startGpsYaw s).evPos = s.evPos := (startGpsYaw_frame s).2.2.2.2.2.1
@[simp] theorem startGpsYaw_evVel (s : St) : (startGpsYaw s).evVel = s.evVel := (startGpsYaw_frame s).2.2.2.2.2.2.1
@[simp] theorem startGpsYaw_magDist (s : St) : (startGpsYaw s).magDist = s.magDist := (startGpsYaw_frame s).2.2.2.2.2.2.2.1
@[simp] theorem startGpsYaw_magFault (s : St) : (startGpsYaw s).magFault = s.magFault := (startGpsYaw_frame s).2.2.2.2.2.2.2.2.1
@[simp] theorem startGpsYaw_fuseAspd (s : St) : (startGpsYaw s).fuseAspd = s.fuseAspd := (startGpsYaw_frame s).2.2.2.2.2.2.2.2.2.1
@[simp] theorem startGpsYaw_magAligned (s : St) : (startGpsYaw s).magAligned = s.magAligned := (startGpsYaw_frame s).2.2.2.2.2.2.2.2.2.2.1
@[simp] theorem startGpsYaw_magYawReq (s : St) : (startGpsYaw s).magYawReq = s.magYawReq := (startGpsYaw_frame s).2.2.2.2.2.2.2.2.2.2.2.1
@[simp] theorem startGpsYaw_magInhReq (s : St) : (startGpsYaw s).magInhReq = s.magInhReq := (startGpsYaw_frame s).2.2.2.2.2.2.2.2.2.2.2.2.1
@[simp] theorem startGpsYaw_velposReq (s : St) : (startGpsYaw s).velposReq = s.velposReq := (startGpsYaw_frame s).2.2.2.2.2.2.2.2.2.2.2.2.2.1
@[simp] theorem startGpsYaw_inhibited (s : St) : (startGpsYaw s).inhibited = s.inhibited := (startGpsYaw_frame s).2.2.2.2.2.2.2.2.2.2.2.2.2.2.1
@[simp] theorem startGpsYaw_nonMagPrev (s : St) : (startGpsYaw s).nonMagPrev = s.nonMagPrev := (startGpsYaw_frame s).2.2.2.2.2.2.2.2.2.2.2.2.2.2.2.1
@[simp] theorem startGpsYaw_yawObs (s : St) : (startGpsYaw s).yawObs = s.yawObs := (startGpsYaw_frame s).2.2.2.2.2.2.2.2.2.2.2.2.2.2.2.2.1
@[simp] theorem startGpsYaw_biasObs (s : St) : (startGpsYaw s).biasObs = s.biasObs := (startGpsYaw_frame s).2.2.2.2.2.2.2.2.2.2.2.2.2.2.2.2.2.1
@[simp] theorem startGpsYaw_nBad (s : St) : (startGpsYaw s).nBad = s.nBad := (startGpsYaw_frame s).2.2.2.2.2.2.2.2.2.2.2.2.2.2.2.2.2.2.1
@[simp] theorem startGpsYaw_declCovReset (s : St) : (startGpsYaw s).declCovReset = s.declCovReset := (startGpsYaw_frame s).2.2.2.2.2.2.2.2.2.2.2.2.2.2.2.2.2.2.2.1
@[simp] theorem startGpsYaw_tAlign (s : St) : (startGpsYaw s).tAlign = s.tAlign := (startGpsYaw_frame s).2.2.2.2.2.2.2.2.2.2.2.2.2.2.2.2.2.2.2.2.1
@[simp] theorem startGpsYaw_tMov (s : St) : (startGpsYaw s).tMov = s.tMov := (startGpsYaw_frame s).2.2.2.2.2.2.2.2.2.2.2.2.2.2.2.2.2.2.2.2.2.1
@[simp] theorem startGpsYaw_tNotInh (s : St) : (startGpsYaw s).tNotInh = s.tNotInh := (startGpsYaw_frame s).2.2.2.2.2.2.2.2.2.2.2.2.2.2.2.2.2.2.2.2.2.2.1
@[simp] theorem startGpsYaw_tYaw (s : St) : (startGpsYaw s).tYaw = s.tYaw := (startGpsYaw_frame s).2.2.2.2.2.2.2.2.2.2.2.2.2.2.2.2.2.2.2.2.2.2.2.1
@[simp] theorem startGpsYaw_gpsYawFaulty (s : St) : (startGpsYaw s).gpsYawFaulty = s.gpsYawFaulty := (startGpsYaw_frame s).2.2.2.2.2.2.2.2.2.2.2.2.2.2.2.2.2.2.2.2.2.2.2.2.1
@[simp] theorem startGpsYaw_doGsf (s : St) : (startGpsYaw s).doGsf = s.doGsf := (startGpsYaw_frame s).2.2.2.2.2.2.2.2.2.2.2.2.2.2.2.2.2.2.2.2.2.2.2.2.2.1
@[simp] theorem startGpsYaw_gsfTime (s : St) : (startGpsYaw s).gsfTime = s.gsfTime := (startGpsYaw_frame s).2.2.2.2.2.2.2.2.2.2.2.2.2.2.2.2.2.2.2.2.2.2.2.2.2.2.1
@[simp] theorem startGpsYaw_gsfCount (s : St) : (startGpsYaw s).gsfCount = s.gsfCount := (startGpsYaw_frame s).2.2.2.2.2.2.2.2.2.2.2.2.2.2.2.2.2.2.2.2.2.2.2.2.2.2.2.1
@[simp] theorem startGpsYaw_tPos (s : St) : (startGpsYaw s).tPos = s.tPos := (startGpsYaw_frame s).2.2.2.2.2.2.2.2.2.2.2.2.2.2.2.2.2.2.2.2.2.2.2.2.2.2.2.2.1
@[simp] theorem startGpsYaw_tDelpos (s : St) : (startGpsYaw s).tDelpos = s.tDelpos := (startGpsYaw_frame s).2.2.2.2.2.2.2.2.2.2.2.2.2.2.2.2.2.2.2.2.2.2.2.2.2.2.2.2.2.1
@[simp] theorem startGpsYaw_tVel (s : St) : (startGpsYaw s).tVel = s.tVel := (startGpsYaw_frame s).2.2.2.2.2.2.2.2.2.2.2.2.2.2.2.2.2.2.2.2.2.2.2.2.2.2.2.2.2.2.1
@[simp] theorem startGpsYaw_tOf (s : St) : (startGpsYaw s).tOf = s.tOf := (startGpsYaw_frame s).2.2.2.2.2.2.2.2.2.2.2.2.2.2.2.2.2.2.2.2.2.2.2.2.2.2.2.2.2.2.2.1
@[simp] theorem startGpsYaw_tBeta (s : St) : (startGpsYaw s).tBeta = s.tBeta := (startGpsYaw_frame s).2.2.2.2.2.2.2.2.2.2.2.2.2.2.2.2.2.2.2.2.2.2.2.2.2.2.2.2.2.2.2.2.1
@[simp] theorem startGpsYaw_tArsp (s : St) : (startGpsYaw s).tArsp = s.tArsp := (startGpsYaw_frame s).2.2.2.2.2.2.2.2.2.2.2.2.2.2.2.2.2.2.2.2.2.2.2.2.2.2.2.2.2.2.2.2.2.1
@[simp] theorem startGpsYaw_tFake (s : St) : (startGpsYaw s).tFake = s.tFake := (startGpsYaw_frame s).2.2.2.2.2.2.2.2.2.2.2.2.2.2.2.2.2.2.2.2.2.2.2.2.2.2.2.2.2.2.2.2.2.2.1
@[simp] theorem startGpsYaw_tGpsYaw (s : St) : (startGpsYaw s).tGpsYaw = s.tGpsYaw := (startGpsYaw_frame s).2.2.2.2.2.2.2.2.2.2.2.2.2.2.2.2.2.2.2.2.2.2.2.2.2.2.2.2.2.2.2.2.2.2.2.1
@[simp] theorem startGpsYaw_hposPrev (s : St) : (startGpsYaw s).hposPrev = s.hposPrev := (startGpsYaw_frame s).2.2.2.2.2.2.2.2.2.2.2.2.2.2.2.2.2.2.2.2.2.2.2.2.2.2.2.2.2.2.2.2.2.2.2.2.1
@[simp] theorem startGpsYaw_hposOdom (s : St) : (startGpsYaw s).hposOdom = s.hposOdom := (startGpsYaw_frame s).2.2.2.2.2.2.2.2.2.2.2.2.2.2.2.2.2.2.2.2.2.2.2.2.2.2.2.2.2.2.2.2.2.2.2.2.2.1
@[simp] theorem startGpsYaw_synth (s : St) : (startGpsYaw s).synth = s.synth := (startGpsYaw_frame s).2.2.2.2.2.2.2.2.2.2.2.2.2.2.2.2.2.2.2.2.2.2.2.2.2.2.2.2.2.2.2.2.2.2.2.2.2.2.1
@[simp] theorem startGpsYaw_flowReady (s : St) : (startGpsYaw s).flowReady = s.flowReady := (startGpsYaw_frame s).2.2.2.2.2.2.2.2.2.2.2.2.2.2.2.2.2.2.2.2.2.2.2.2.2.2.2.2.2.2.2.2.2.2.2.2.2.2.2.1
@[simp] theorem startGpsYaw_flowInh (s : St) : (startGpsYaw s).flowInh = s.flowInh := (startGpsYaw_frame s).2.2.2.2.2.2.2.2.2.2.2.2.2.2.2.2.2.2.2.2.2.2.2.2.2.2.2.2.2.2.2.2.2.2.2.2.2.2.2.2.1
@[simp] theorem startGpsYaw_tGood (s : St) : (startGpsYaw s).tGood = s.tGood := (startGpsYaw_frame s).2.2.2.2.2.2.2.2.2.2.2.2.2.2.2.2.2.2.2.2.2.2.2.2.2.2.2.2.2.2.2.2.2.2.2.2.2.2.2.2.2.1
@[simp] theorem startGpsYaw_tBad (s : St) : (startGpsYaw s).tBad = s.tBad := (startGpsYaw_frame s).2.2.2.2.2.2.2.2.2.2.2.2.2.2.2.2.2.2.2.2.2.2.2.2.2.2.2.2.2.2.2.2.2.2.2.2.2.2.2.2.2.2

theorem gpsYawUse_frame (x : In) (s : St) :
    (gpsYawUse x s).tilt = s.tilt ∧ (gpsYawUse x s).gps = s.gps ∧ (gpsYawUse x s).optFlow = s.optFlow ∧ (gpsYawUse x s).wind = s.wind ∧ (gpsYawUse x s).evPos = s.evPos ∧ (gpsYawUse x s).evVel = s.evVel ∧ (gpsYawUse x s).magDist = s.magDist ∧ (gpsYawUse x s).magFault = s.magFault ∧ (gpsYawUse x s).fuseAspd = s.fuseAspd ∧ (gpsYawUse x s).magAligned = s.magAligned ∧ (gpsYawUse x s).magYawReq = s.magYawReq ∧ (gpsYawUse x s).magInhReq = s.magInhReq ∧ (gpsYawUse x s).velposReq = s.velposReq ∧ (gpsYawUse x s).inhibited = s.inhibited ∧ (gpsYawUse x s).nonMagPrev = s.nonMagPrev ∧ (gpsYawUse x s).yawObs = s.yawObs ∧ (gpsYawUse x s).biasObs = s.biasObs ∧ (gpsYawUse x s).nBad = s.nBad ∧ (gpsYawUse x s).declCovReset = s.declCovReset ∧ (gpsYawUse x s).tAlign = s.tAlign ∧ (gpsYawUse x s).tMov = s.tMov ∧ (gpsYawUse x s).tNotInh = s.tNotInh ∧ (gpsYawUse x s).tYaw = s.tYaw ∧ (gpsYawUse x s).gpsYawFaulty = s.gpsYawFaulty ∧ (gpsYawUse x s).doGsf = s.doGsf ∧ (gpsYawUse x s).gsfTime = s.gsfTime ∧ (gpsYawUse x s).gsfCount = s.gsfCount ∧ (gpsYawUse x s).tPos = s.tPos ∧ (gpsYawUse x s).tDelpos = s.tDelpos ∧ (gpsYawUse x s).tVel = s.tVel ∧ (gpsYawUse x s).tOf = s.tOf ∧ (gpsYawUse x s).tBeta = s.tBeta ∧ (gpsYawUse x s).tArsp = s.tArsp ∧ (gpsYawUse x s).tFake = s.tFake ∧ (gpsYawUse x s).hposPrev = s.hposPrev ∧ (gpsYawUse x s).hposOdom = s.hposOdom ∧ (gpsYawUse x s).synth = s.synth ∧ (gpsYawUse x s).flowReady = s.flowReady ∧ (gpsYawUse x s).flowInh = s.flowInh ∧ (gpsYawUse x s).tGood = s.tGood ∧ (gpsYawUse x s).tBad = s.tBad := by
  unfold gpsYawUse; (try dsimp only); split_ifs <;> simp [*]
@[simp] theorem gpsYawUse_tilt (x : In) (s : St) : (gpsYawUse x s).tilt = s.tilt := (gpsYawUse_frame x s).1
@[simp] theorem gpsYawUse_gps (x : In) (s : St) : (gpsYawUse x s).gps = s.gps := (gpsYawUse_frame x s).2.1
@[simp] theorem gpsYawUse_optFlow (x : In) (s : St) : (gpsYawUse x s).optFlow = s.optFlow := (gpsYawUse_frame x s).2.2.1
@[simp] theorem gpsYawUse_wind (x : In) (s : St) : (gpsYawUse x s).wind = s.wind := (gpsYawUse_frame x s).2.2.2.1
@[simp] theorem gpsYawUse_evPos (x : In) (s : St) : (gpsYawUse x s).evPos = s.evPos := (gpsYawUse_frame x s).2.2.2.2.1
@[simp] theorem gpsYawUse_evVel (x : In) (s : St) : (gpsYawUse x s).evVel = s.evVel := (gpsYawUse_frame x s).2.2.2.2.2.1
@[simp] theorem gpsYawUse_magDist (x : In) (s : St) : (gpsYawUse x s).magDist = s.magDist := (gpsYawUse_frame x s).2.2.2.2.2.2.1
@[simp] theorem gpsYawUse_magFault (x : In) (s : St) : (gpsYawUse x s).magFault = s.magFault := (gpsYawUse_frame x s).2.2.2.2.2.2.2.1
@[simp] theorem gpsYawUse_fuseAspd (x : In) (s : St) : (gpsYawUse x s).fuseAspd = s.fuseAspd := (gpsYawUse_frame x s).2.2.2.2.2.2.2.2.1
@[simp] theorem gpsYawUse_magAligned (x : In) (s : St) : (gpsYawUse x s).magAligned = s.magAligned := (gpsYawUse_frame x s).2.2.2.2.2.2.2.2.2.1
@[simp] theorem gpsYawUse_magYawReq (x : In) (s : St) : (gpsYawUse x s).magYawReq = s.magYawReq := (gpsYawUse_frame x s).2.2.2.2.2.2.2.2.2.2.1
@[simp] theorem gpsYawUse_magInhReq (x : In) (s : St) : (gpsYawUse x s).magInhReq = s.magInhReq := (gpsYawUse_frame x s).2.2.2.2.2.2.2.2.2.2.2.1
@[simp] theorem gpsYawUse_velposReq (x : In) (s : St) : (gpsYawUse x s).velposReq = s.velposReq := (gpsYawUse_frame x s).2.2.2.2.2.2.2.2.2.2.2.2.1
@[simp] theorem gpsYawUse_inhibited (x : In) (s : St) : (gpsYawUse x s).inhibited = s.inhibited := (gpsYawUse_frame x s).2.2.2.2.2.2.2.2.2.2.2.2.2.1
@[simp] theorem gpsYawUse_nonMagPrev (x : In) (s : St) : (gpsYawUse x s).nonMagPrev = s.nonMagPrev := (gpsYawUse_frame x s).2.2.2.2.2.2.2.2.2.2.2.2.2.2.1
@[simp] theorem gpsYawUse_yawObs (x : In) (s : St) : (gpsYawUse x s).yawObs = s.yawObs := (gpsYawUse_frame x s).2.2.2.2.2.2.2.2.2.2.2.2.2.2.2.1
@[simp] theorem gpsYawUse_biasObs (x : In) (s : St) : (gpsYawUse x s).biasObs = s.biasObs := (gpsYawUse_frame x s).2.2.2.2.2.2.2.2.2.2.2.2.2.2.2.2.1
@[simp] theorem gpsYawUse_nBad (x : In) (s : St) : (gpsYawUse x s).nBad = s.nBad := (gpsYawUse_frame x s).2.2.2.2.2.2.2.2.2.2.2.2.2.2.2.2.2.1
@[simp] theorem gpsYawUse_declCovReset (x : In) (s : St) : (gpsYawUse x s).declCovReset = s.declCovReset := (gpsYawUse_frame x s).2.2.2.2.2.2.2.2.2.2.2.2.2.2.2.2.2.2.1
@[simp] theorem gpsYawUse_tAlign (x : In) (s : St) : (gpsYawUse x s).tAlign = s.tAlign := (gpsYawUse_frame x s).2.2.2.2.2.2.2.2.2.2.2.2.2.2.2.2.2.2.2.1
@[simp] theorem gpsYawUse_tMov (x : In) (s : St) : (gpsYawUse x s).tMov = s.tMov := (gpsYawUse_frame x s).2.2.2.2.2.2.2.2.2.2.2.2.2.2.2.2.2.2.2.2.1
@[simp] theorem gpsYawUse_tNotInh (x : In) (s : St) : (gpsYawUse x s).tNotInh = s.tNotInh := (gpsYawUse_frame x s).2.2.2.2.2.2.2.2.2.2.2.2.2.2.2.2.2.2.2.2.2.1
@[simp] theorem gpsYawUse_tYaw (x : In) (s : St) : (gpsYawUse x s).tYaw = s.tYaw := (gpsYawUse_frame x s).2.2.2.2.2.2.2.2.2.2.2.2.2.2.2.2.2.2.2.2.2.2.1
@[simp] theorem gpsYawUse_gpsYawFaulty (x : In) (s : St) : (gpsYawUse x s).gpsYawFaulty = s.gpsYawFaulty := (gpsYawUse_frame x s).2.2.2.2.2.2.2.2.2.2.2.2.2.2.2.2.2.2.2.2.2.2.2.1
@[simp] theorem gpsYawUse_doGsf (x : In) (s : St) : (gpsYawUse x s).doGsf = s.doGsf := (gpsYawUse_frame x s).2.2.2.2.2.2.2.2.2.2.2.2.2.2.2.2.2.2.2.2.2.2.2.2.1
@[simp] theorem gpsYawUse_gsfTime (x : In) (s : St) : (gpsYawUse x s).gsfTime = s.gsfTime := (gpsYawUse_frame x s).2.2.2.2.2.2.2.2.2.2.2.2.2.2.2.2.2.2.2.2.2.2.2.2.2.1
@[simp] theorem gpsYawUse_gsfCount (x : In) (s : St) : (gpsYawUse x s).gsfCount = s.gsfCount := (gpsYawUse_frame x s).2.2.2.2.2.2.2.2.2.2.2.2.2.2.2.2.2.2.2.2.2.2.2.2.2.2.1
@[simp] theorem gpsYawUse_tPos (x : In) (s : St) : (gpsYawUse x s).tPos = s.tPos := (gpsYawUse_frame x s).2.2.2.2.2.2.2.2.2.2.2.2.2.2.2.2.2.2.2.2.2.2.2.2.2.2.2.1
@[simp] theorem gpsYawUse_tDelpos (x : In) (s : St) : (gpsYawUse x s).tDelpos = s.tDelpos := (gpsYawUse_frame x s).2.2.2.2.2.2.2.2.2.2.2.2.2.2.2.2.2.2.2.2.2.2.2.2.2.2.2.2.1
@[simp] theorem gpsYawUse_tVel (x : In) (s : St) : (gpsYawUse x s).tVel = s.tVel := (gpsYawUse_frame x s).2.2.2.2.2.2.2.2.2.2.2.2.2.2.2.2.2.2.2.2.2.2.2.2.2.2.2.2.2.1
@[simp] theorem gpsYawUse_tOf (x : In) (s : St) : (gpsYawUse x s).tOf = s.tOf := (gpsYawUse_frame x s).2.2.2.2.2.2.2.2.2.2.2.2.2.2.2.2.2.2.2.2.2.2.2.2.2.2.2.2.2.2.1
@[simp] theorem gpsYawUse_tBeta (x : In) (s : St) : (gpsYawUse x s).tBeta = s.tBeta := (gpsYawUse_frame x s).2.2.2.2.2.2.2.2.2.2.2.2.2.2.2.2.2.2.2.2.2.2.2.2.2.2.2.2.2.2.2.1
@[simp] theorem gpsYawUse_tArsp (x : In) (s : St) : (gpsYawUse x s).tArsp = s.tArsp := (gpsYawUse_frame x s).2.2.2.2.2.2.2.2.2.2.2.2.2.2.2.2.2.2.2.2.2.2.2.2.2.2.2.2.2.2.2.2.1
@[simp] theorem gpsYawUse_tFake (x : In) (s : St) : (gpsYawUse x s).tFake = s.tFake := (gpsYawUse_frame x s).2.2.2.2.2.2.2.2.2.2.2.2.2.2.2.2.2.2.2.2.2.2.2.2.2.2.2.2.2.2.2.2.2.1
@[simp] theorem gpsYawUse_hposPrev (x : In) (s : St) : (gpsYawUse x s).hposPrev = s.hposPrev := (gpsYawUse_frame x s).2.2.2.2.2.2.2.2.2.2.2.2.2.2.2.2.2.2.2.2.2.2.2.2.2.2.2.2.2.2.2.2.2.2.1
@[simp] theorem gpsYawUse_hposOdom (x : In) (s : St) : (gpsYawUse x s).hposOdom = s.hposOdom := (gpsYawUse_frame x s).2.2.2.2.2.2.2.2.2.2.2.2.2.2.2.2.2.2.2.2.2.2.2.2.2.2.2.2.2.2.2.2.2.2.2.1
@[simp] theorem gpsYawUse_synth (x : In) (s : St) : (gpsYawUse x s).synth = s.synth := (gpsYawUse_frame x s).2.2.2.2.2.2.2.2.2.2.2.2.2.2.2.2.2.2.2.2.2.2.2.2.2.2.2.2.2.2.2.2.2.2.2.2.1
@[simp] theorem gpsYawUse_flowReady (x : In) (s : St) : (gpsYawUse x s).flowReady = s.flowReady := (gpsYawUse_frame x s).2.2.2.2.2.2.2.2.2.2.2.2.2.2.2.2.2.2.2.2.2.2.2.2.2.2.2.2.2.2.2.2.2.2.2.2.2.1
@[simp] theorem gpsYawUse_flowInh (x : In) (s : St) : (gpsYawUse x s).flowInh = s.flowInh := (gpsYawUse_frame x s).2.2.2.2.2.2.2.2.2.2.2.2.2.2.2.2.2.2.2.2.2.2.2.2.2.2.2.2.2.2.2.2.2.2.2.2.2.2.1
@[simp] theorem gpsYawUse_tGood (x : In) (s : St) : (gpsYawUse x s).tGood = s.tGood := (gpsYawUse_frame x s).2.2.2.2.2.2.2.2.2.2.2.2.2.2.2.2.2.2.2.2.2.2.2.2.2.2.2.2.2.2.2.2.2.2.2.2.2.2.2.1
@[simp] theorem gpsYawUse_tBad (x : In) (s : St) : (gpsYawUse x s).tBad = s.tBad := (gpsYawUse_frame x s).2.2.2.2.2.2.2.2.2.2.2.2.2.2.2.2.2.2.2.2.2.2.2.2.2.2.2.2.2.2.2.2.2.2.2.2.2.2.2.2

theorem controlGpsYaw_frame (x : In) (s : St) :
    (controlGpsYaw x s).tilt = s.tilt ∧ (controlGpsYaw x s).gps = s.gps ∧ (controlGpsYaw x s).optFlow = s.optFlow ∧ (controlGpsYaw x s).wind = s.wind ∧ (controlGpsYaw x s).evPos = s.evPos ∧ (controlGpsYaw x s).evVel = s.evVel ∧ (controlGpsYaw x s).magDist = s.magDist ∧ (controlGpsYaw x s).magFault = s.magFault ∧ (controlGpsYaw x s).fuseAspd = s.fuseAspd ∧ (controlGpsYaw x s).magAligned = s.magAligned ∧ (controlGpsYaw x s).magYawReq = s.magYawReq ∧ (controlGpsYaw x s).magInhReq = s.magInhReq ∧ (controlGpsYaw x s).velposReq = s.velposReq ∧ (controlGpsYaw x s).inhibited = s.inhibited ∧ (controlGpsYaw x s).nonMagPrev = s.nonMagPrev ∧ (controlGpsYaw x s).yawObs = s.yawObs ∧ (controlGpsYaw x s).biasObs = s.biasObs ∧ (controlGpsYaw x s).nBad = s.nBad ∧ (controlGpsYaw x s).declCovReset = s.declCovReset ∧ (controlGpsYaw x s).tAlign = s.tAlign ∧ (controlGpsYaw x s).tMov = s.tMov ∧ (controlGpsYaw x s).tNotInh = s.tNotInh ∧ (controlGpsYaw x s).tYaw = s.tYaw ∧ (controlGpsYaw x s).doGsf = s.doGsf ∧ (controlGpsYaw x s).gsfTime = s.gsfTime ∧ (controlGpsYaw x s).gsfCount = s.gsfCount ∧ (controlGpsYaw x s).tPos = s.tPos ∧ (controlGpsYaw x s).tDelpos = s.tDelpos ∧ (controlGpsYaw x s).tVel = s.tVel ∧ (controlGpsYaw x s).tOf = s.tOf ∧ (controlGpsYaw x s).tBeta = s.tBeta ∧ (controlGpsYaw x s).tArsp = s.tArsp ∧ (controlGpsYaw x s).tFake = s.tFake ∧ (controlGpsYaw x s).hposPrev = s.hposPrev ∧ (controlGpsYaw x s).hposOdom = s.hposOdom ∧ (controlGpsYaw x s).synth = s.synth ∧ (controlGpsYaw x s).flowReady = s.flowReady ∧ (controlGpsYaw x s).flowInh = s.flowInh ∧ (controlGpsYaw x s).tGood = s.tGood ∧ (controlGpsYaw x s).tBad = s.tBad := by
  unfold controlGpsYaw; (try dsimp only); split_ifs <;> simp [*]
@[simp] theorem controlGpsYaw_tilt (x : In) (s : St) : (controlGpsYaw x s).tilt = s.tilt := (controlGpsYaw_frame x s).1
@[simp] theorem controlGpsYaw_gps (x : In) (s : St) : (controlGpsYaw x s).gps = s.gps := (controlGpsYaw_frame x s).2.1
@[simp] theorem controlGpsYaw_optFlow (x : In) (s : St) : (controlGpsYaw x s).optFlow = s.optFlow := (controlGpsYaw_frame x s).2.2.1
@[simp] theorem controlGpsYaw_wind (x : In) (s : St) : (controlGpsYaw x s).wind = s.wind := (controlGpsYaw_frame x s).2.2.2.1
@[simp] theorem controlGpsYaw_evPos (x : In) (s : St) : (controlGpsYaw x s).evPos = s.evPos := (controlGpsYaw_frame x s).2.2.2.2.1
@[simp] theorem controlGpsYaw_evVel (x : In) (s : St) : (controlGpsYaw x s).evVel = s.evVel := (controlGpsYaw_frame x s).2.2.2.2.2.1
@[simp] theorem controlGpsYaw_magDist (x : In) (s : St) : (controlGpsYaw x s).magDist = s.magDist := (controlGpsYaw_frame x s).2.2.2.2.2.2.1
@[simp] theorem controlGpsYaw_magFault (x : In) (s : St) : (controlGpsYaw x s).magFault = s.magFault := (controlGpsYaw_frame x s).2.2.2.2.2.2.2.1
@[simp] theorem controlGpsYaw_fuseAspd (x : In) (s : St) : (controlGpsYaw x s).fuseAspd = s.fuseAspd := (controlGpsYaw_frame x s).2.2.2.2.2.2.2.2.1
@[simp] theorem controlGpsYaw_magAligned (x : In) (s : St) : (controlGpsYaw x s).magAligned = s.magAligned := (controlGpsYaw_frame x s).2.2.2.2.2.2.2.2.2.1
@[simp] theorem controlGpsYaw_magYawReq (x : In) (s : St) : (controlGpsYaw x s).magYawReq = s.magYawReq := (controlGpsYaw_frame x s).2.2.2.2.2.2.2.2.2.2.1
@[simp] theorem controlGpsYaw_magInhReq (x : In) (s : St) : (controlGpsYaw x s).magInhReq = s.magInhReq := (controlGpsYaw_frame x s).2.2.2.2.2.2.2.2.2.2.2.1
@[simp] theorem controlGpsYaw_velposReq (x : In) (s : St) : (controlGpsYaw x s).velposReq = s.velposReq := (controlGpsYaw_frame x s).2.2.2.2.2.2.2.2.2.2.2.2.1
@[simp] theorem controlGpsYaw_inhibited (x : In) (s : St) : (controlGpsYaw x s).inhibited = s.inhibited := (controlGpsYaw_frame x s).2.2.2.2.2.2.2.2.2.2.2.2.2.1
@[simp] theorem controlGpsYaw_nonMagPrev (x : In) (s : St) : (controlGpsYaw x s).nonMagPrev = s.nonMagPrev := (controlGpsYaw_frame x s).2.2.2.2.2.2.2.2.2.2.2.2.2.2.1
@[simp] theorem controlGpsYaw_yawObs (x : In) (s : St) : (controlGpsYaw x s).yawObs = s.yawObs := (controlGpsYaw_frame x s).2.2.2.2.2.2.2.2.2.2.2.2.2.2.2.1
@[simp] theorem controlGpsYaw_biasObs (x : In) (s : St) : (controlGpsYaw x s).biasObs = s.biasObs := (controlGpsYaw_frame x s).2.2.2.2.2.2.2.2.2.2.2.2.2.2.2.2.1
@[simp] theorem controlGpsYaw_nBad (x : In) (s : St) : (controlGpsYaw x s).nBad = s.nBad := (controlGpsYaw_frame x s).2.2.2.2.2.2.2.2.2.2.2.2.2.2.2.2.2.1
@[simp] theorem controlGpsYaw_declCovReset (x : In) (s : St) : (controlGpsYaw x s).declCovReset = s.declCovReset := (controlGpsYaw_frame x s).2.2.2.2.2.2.2.2.2.2.2.2.2.2.2.2.2.2.1
@[simp] theorem controlGpsYaw_tAlign (x : In) (s : St) : (controlGpsYaw x s).tAlign = s.tAlign := (controlGpsYaw_frame x s).2.2.2.2.2.2.2.2.2.2.2.2.2.2.2.2.2.2.2.1
@[simp] theorem controlGpsYaw_tMov (x : In) (s : St) : (controlGpsYaw x s).tMov = s.tMov := (controlGpsYaw_frame x s).2.2.2.2.2.2.2.2.2.2.2.2.2.2.2.2.2.2.2.2.1
@[simp] theorem controlGpsYaw_tNotInh (x : In) (s : St) : (controlGpsYaw x s).tNotInh = s.tNotInh := (controlGpsYaw_frame x s).2.2.2.2.2.2.2.2.2.2.2.2.2.2.2.2.2.2.2.2.2.1
@[simp] theorem controlGpsYaw_tYaw (x : In) (s : St) : (controlGpsYaw x s).tYaw = s.tYaw := (controlGpsYaw_frame x s).2.2.2.2.2.2.2.2.2.2.2.2.2.2.2.2.2.2.2.2.2.2.1
@[simp] theorem controlGpsYaw_doGsf (x : In) (s : St) : (controlGpsYaw x s).doGsf = s.doGsf := (controlGpsYaw_frame x s).2.2.2.2.2.2.2.2.2.2.2.2.2.2.2.2.2.2.2.2.2.2.2.1
@[simp] theorem controlGpsYaw_gsfTime (x : In) (s : St) : (controlGpsYaw x s).gsfTime = s.gsfTime := (controlGpsYaw_frame x s).2.2.2.2.2.2.2.2.2.2.2.2.2.2.2.2.2.2.2.2.2.2.2.2.1
@[simp] theorem controlGpsYaw_gsfCount (x : In) (s : St) : (controlGpsYaw x s).gsfCount = s.gsfCount := (controlGpsYaw_frame x s).2.2.2.2.2.2.2.2.2.2.2.2.2.2.2.2.2.2.2.2.2.2.2.2.2.1
@[simp] theorem controlGpsYaw_tPos (x : In) (s : St) : (controlGpsYaw x s).tPos = s.tPos := (controlGpsYaw_frame x s).2.2.2.2.2.2.2.2.2.2.2.2.2.2.2.2.2.2.2.2.2.2.2.2.2.2.1
@[simp] theorem controlGpsYaw_tDelpos (x : In) (s : St) : (controlGpsYaw x s).tDelpos = s.tDelpos := (controlGpsYaw_frame x s).2.2.2.2.2.2.2.2.2.2.2.2.2.2.2.2.2.2.2.2.2.2.2.2.2.2.2.1
@[simp] theorem controlGpsYaw_tVel (x : In) (s : St) : (controlGpsYaw x s).tVel = s.tVel := (controlGpsYaw_frame x s).2.2.2.2.2.2.2.2.2.2.2.2.2.2.2.2.2.2.2.2.2.2.2.2.2.2.2.2.1
@[simp] theorem controlGpsYaw_tOf (x : In) (s : St) : (controlGpsYaw x s).tOf = s.tOf := (controlGpsYaw_frame x s).2.2.2.2.2.2.2.2.2.2.2.2.2.2.2.2.2.2.2.2.2.2.2.2.2.2.2.2.2.1
@[simp] theorem controlGpsYaw_tBeta (x : In) (s : St) : (controlGpsYaw x s).tBeta = s.tBeta := (controlGpsYaw_frame x s).2.2.2.2.2.2.2.2.2.2.2.2.2.2.2.2.2.2.2.2.2.2.2.2.2.2.2.2.2.2.1
@[simp] theorem controlGpsYaw_tArsp (x : In) (s : St) : (controlGpsYaw x s).tArsp = s.tArsp := (controlGpsYaw_frame x s).2.2.2.2.2.2.2.2.2.2.2.2.2.2.2.2.2.2.2.2.2.2.2.2.2.2.2.2.2.2.2.1
@[simp] theorem controlGpsYaw_tFake (x : In) (s : St) : (controlGpsYaw x s).tFake = s.tFake := (controlGpsYaw_frame x s).2.2.2.2.2.2.2.2.2.2.2.2.2.2.2.2.2.2.2.2.2.2.2.2.2.2.2.2.2.2.2.2.1
@[simp] theorem controlGpsYaw_hposPrev (x : In) (s : St) : (controlGpsYaw x s).hposPrev = s.hposPrev := (controlGpsYaw_frame x s).2.2.2.2.2.2.2.2.2.2.2.2.2.2.2.2.2.2.2.2.2.2.2.2.2.2.2.2.2.2.2.2.2.1
@[simp] theorem controlGpsYaw_hposOdom (x : In) (s : St) : (controlGpsYaw x s).hposOdom = s.hposOdom := (controlGpsYaw_frame x s).2.2.2.2.2.2.2.2.2.2.2.2.2.2.2.2.2.2.2.2.2.2.2.2.2.2.2.2.2.2.2.2.2.2.1
@[simp] theorem controlGpsYaw_synth (x : In) (s : St) : (controlGpsYaw x s).synth = s.synth := (controlGpsYaw_frame x s).2.2.2.2.2.2.2.2.2.2.2.2.2.2.2.2.2.2.2.2.2.2.2.2.2.2.2.2.2.2.2.2.2.2.2.1
@[simp] theorem controlGpsYaw_flowReady (x : In) (s : St) : (controlGpsYaw x s).flowReady = s.flowReady := (controlGpsYaw_frame x s).2.2.2.2.2.2.2.2.2.2.2.2.2.2.2.2.2.2.2.2.2.2.2.2.2.2.2.2.2.2.2.2.2.2.2.2.1
@[simp] theorem controlGpsYaw_flowInh (x : In) (s : St) : (controlGpsYaw x s).flowInh = s.flowInh := (controlGpsYaw_frame x s).2.2.2.2.2.2.2.2.2.2.2.2.2.2.2.2.2.2.2.2.2.2.2.2.2.2.2.2.2.2.2.2.2.2.2.2.2.1
@[simp] theorem controlGpsYaw_tGood (x : In) (s : St) : (controlGpsYaw x s).tGood = s.tGood := (controlGpsYaw_frame x s).2.2.2.2.2.2.2.2.2.2.2.2.2.2.2.2.2.2.2.2.2.2.2.2.2.2.2.2.2.2.2.2.2.2.2.2.2.2.1
@[simp] theorem controlGpsYaw_tBad (x : In) (s : St) : (controlGpsYaw x s).tBad = s.tBad := (controlGpsYaw_frame x s).2.2.2.2.2.2.2.2.2.2.2.2.2.2.2.2.2.2.2.2.2.2.2.2.2.2.2.2.2.2.2.2.2.2.2.2.2.2.2

theorem gpsHeading_frame (x : In) (s : St) :
    (gpsHeading x s).tilt = s.tilt ∧ (gpsHeading x s).gps = s.gps ∧ (gpsHeading x s).optFlow = s.optFlow ∧ (gpsHeading x s).magDec = s.magDec ∧ (gpsHeading x s).wind = s.wind ∧ (gpsHeading x s).evPos = s.evPos ∧ (gpsHeading x s).evVel = s.evVel ∧ (gpsHeading x s).gpsYaw = s.gpsYaw ∧ (gpsHeading x s).magDist = s.magDist ∧ (gpsHeading x s).magFault = s.magFault ∧ (gpsHeading x s).fuseAspd = s.fuseAspd ∧ (gpsHeading x s).magAligned = s.magAligned ∧ (gpsHeading x s).magYawReq = s.magYawReq ∧ (gpsHeading x s).velposReq = s.velposReq ∧ (gpsHeading x s).inhibited = s.inhibited ∧ (gpsHeading x s).nonMagPrev = s.nonMagPrev ∧ (gpsHeading x s).yawObs = s.yawObs ∧ (gpsHeading x s).biasObs = s.biasObs ∧ (gpsHeading x s).nBad = s.nBad ∧ (gpsHeading x s).tMov = s.tMov ∧ (gpsHeading x s).tNotInh = s.tNotInh ∧ (gpsHeading x s).tYaw = s.tYaw ∧ (gpsHeading x s).gpsYawFaulty = s.gpsYawFaulty ∧ (gpsHeading x s).doGsf = s.doGsf ∧ (gpsHeading x s).gsfTime = s.gsfTime ∧ (gpsHeading x s).gsfCount = s.gsfCount ∧ (gpsHeading x s).tPos = s.tPos ∧ (gpsHeading x s).tDelpos = s.tDelpos ∧ (gpsHeading x s).tVel = s.tVel ∧ (gpsHeading x s).tOf = s.tOf ∧ (gpsHeading x s).tBeta = s.tBeta ∧ (gpsHeading x s).tArsp = s.tArsp ∧ (gpsHeading x s).tFake = s.tFake ∧ (gpsHeading x s).tGpsYaw = s.tGpsYaw ∧ (gpsHeading x s).hposPrev = s.hposPrev ∧ (gpsHeading x s).hposOdom = s.hposOdom ∧ (gpsHeading x s).synth = s.synth ∧ (gpsHeading x s).flowReady = s.flowReady ∧ (gpsHeading x s).flowInh = s.flowInh ∧ (gpsHeading x s).tGood = s.tGood ∧ (gpsHeading x s).tBad = s.tBad := by
  unfold gpsHeading; (try dsimp only); split_ifs <;> simp [*]
@[simp] theorem gpsHeading_tilt (x : In) (s : St) : (gpsHeading x s).tilt = s.tilt := (gpsHeading_frame x s).1
@[simp] theorem gpsHeading_gps (x : In) (s : St) : (gpsHeading x s).gps = s.gps := (gpsHeading_frame x s).2.1
@[simp] theorem gpsHeading_optFlow (x : In) (s : St) : (gpsHeading x s).optFlow = s.optFlow := (gpsHeading_frame x s).2.2.1
@[simp] theorem gpsHeading_magDec (x : In) (s : St) : (gpsHeading x s).magDec = s.magDec := (gpsHeading_frame x s).2.2.2.1
@[simp] theorem gpsHeading_wind (x : In) (s : St) : (gpsHeading x s).wind = s.wind := (gpsHeading_frame x s).2.2.2.2.1
@[simp] theorem gpsHeading_evPos (x : In) (s : St) : (gpsHeading x s).evPos = s.evPos := (gpsHeading_frame x s).2.2.2.2.2.1
@[simp] theorem gpsHeading_evVel (x : In) (s : St) : (gpsHeading x s).evVel = s.evVel := (gpsHeading_frame x s).2.2.2.2.2.2.1
@[simp] theorem gpsHeading_gpsYaw (x : In) (s : St) : (gpsHeading x s).gpsYaw = s.gpsYaw := (gpsHeading_frame x s).2.2.2.2.2.2.2.1
@[simp] theorem gpsHeading_magDist (x : In) (s : St) : (gpsHeading x s).magDist = s.magDist := (gpsHeading_frame x s).2.2.2.2.2.2.2.2.1
@[simp] theorem gpsHeading_magFault (x : In) (s : St) : (gpsHeading x s).magFault = s.magFault := (gpsHeading_frame x s).2.2.2.2.2.2.2.2.2.1
@[simp] theorem gpsHeading_fuseAspd (x : In) (s : St) : (gpsHeading x s).fuseAspd = s.fuseAspd := (gpsHeading_frame x s).2.2.2.2.2.2.2.2.2.2.1
@[simp] theorem gpsHeading_magAligned (x : In) (s : St) : (gpsHeading x s).magAligned = s.magAligned := (gpsHeading_frame x s).2.2.2.2.2.2.2.2.2.2.2.1
@[simp] theorem gpsHeading_magYawReq (x : In) (s : St) : (gpsHeading x s).magYawReq = s.magYawReq := (gpsHeading_frame x s).2.2.2.2.2.2.2.2.2.2.2.2.1
@[simp] theorem gpsHeading_velposReq (x : In) (s : St) : (gpsHeading x s).velposReq = s.velposReq := (gpsHeading_frame x s).2.2.2.2.2.2.2.2.2.2.2.2.2.1
@[simp] theorem gpsHeading_inhibited (x : In) (s : St) : (gpsHeading x s).inhibited = s.inhibited := (gpsHeading_frame x s).2.2.2.2.2.2.2.2.2.2.2.2.2.2.1
@[simp] theorem gpsHeading_nonMagPrev (x : In) (s : St) : (gpsHeading x s).nonMagPrev = s.nonMagPrev := (gpsHeading_frame x s).2.2.2.2.2.2.2.2.2.2.2.2.2.2.2.1
@[simp] theorem gpsHeading_yawObs (x : In) (s : St) : (gpsHeading x s).yawObs = s.yawObs := (gpsHeading_frame x s).2.2.2.2.2.2.2.2.2.2.2.2.2.2.2.2.1
@[simp] theorem gpsHeading_biasObs (x : In) (s : St) : (gpsHeading x s).biasObs = s.biasObs := (gpsHeading_frame x s).2.2.2.2.2.2.2.2.2.2.2.2.2.2.2.2.2.1
@[simp] theorem gpsHeading_nBad (x : In) (s : St) : (gpsHeading x s).nBad = s.nBad := (gpsHeading_frame x s).2.2.2.2.2.2.2.2.2.2.2.2.2.2.2.2.2.2.1
@[simp] theorem gpsHeading_tMov (x : In) (s : St) : (gpsHeading x s).tMov = s.tMov := (gpsHeading_frame x s).2.2.2.2.2.2.2.2.2.2.2.2.2.2.2.2.2.2.2.1
@[simp] theorem gpsHeading_tNotInh (x : In) (s : St) : (gpsHeading x s).tNotInh = s.tNotInh := (gpsHeading_frame x s).2.2.2.2.2.2.2.2.2.2.2.2.2.2.2.2.2.2.2.2.1
@[simp] theorem gpsHeading_tYaw (x : In) (s : St) : (gpsHeading x s).tYaw = s.tYaw := (gpsHeading_frame x s).2.2.2.2.2.2.2.2.2.2.2.2.2.2.2.2.2.2.2.2.2.1
@[simp] theorem gpsHeading_gpsYawFaulty (x : In) (s : St) : (gpsHeading x s).gpsYawFaulty = s.gpsYawFaulty := (gpsHeading_frame x s).2.2.2.2.2.2.2.2.2.2.2.2.2.2.2.2.2.2.2.2.2.2.1
@[simp] theorem gpsHeading_doGsf (x : In) (s : St) : (gpsHeading x s).doGsf = s.doGsf := (gpsHeading_frame x s).2.2.2.2.2.2.2.2.2.2.2.2.2.2.2.2.2.2.2.2.2.2.2.1
@[simp] theorem gpsHeading_gsfTime (x : In) (s : St) : (gpsHeading x s).gsfTime = s.gsfTime := (gpsHeading_frame x s).2.2.2.2.2.2.2.2.2.2.2.2.2.2.2.2.2.2.2.2.2.2.2.2.1
@[simp] theorem gpsHeading_gsfCount (x : In) (s : St) : (gpsHeading x s).gsfCount = s.gsfCount := (gpsHeading_frame x s).2.2.2.2.2.2.2.2.2.2.2.2.2.2.2.2.2.2.2.2.2.2.2.2.2.1
@[simp] theorem gpsHeading_tPos (x : In) (s : St) : (gpsHeading x s).tPos = s.tPos := (gpsHeading_frame x s).2.2.2.2.2.2.2.2.2.2.2.2.2.2.2.2.2.2.2.2.2.2.2.2.2.2.1
@[simp] theorem gpsHeading_tDelpos (x : In) (s : St) : (gpsHeading x s).tDelpos = s.tDelpos := (gpsHeading_frame x s).2.2.2.2.2.2.2.2.2.2.2.2.2.2.2.2.2.2.2.2.2.2.2.2.2.2.2.1
@[simp] theorem gpsHeading_tVel (x : In) (s : St) : (gpsHeading x s).tVel = s.tVel := (gpsHeading_frame x s).2.2.2.2.2.2.2.2.2.2.2.2.2.2.2.2.2.2.2.2.2.2.2.2.2.2.2.2.1
@[simp] theorem gpsHeading_tOf (x : In) (s : St) : (gpsHeading x s).tOf = s.tOf := (gpsHeading_frame x s).2.2.2.2.2.2.2.2.2.2.2.2.2.2.2.2.2.2.2.2.2.2.2.2.2.2.2.2.2.1
@[simp] theorem gpsHeading_tBeta (x : In) (s : St) : (gpsHeading x s).tBeta = s.tBeta := (gpsHeading_frame x s).2.2.2.2.2.2.2.2.2.2.2.2.2.2.2.2.2.2.2.2.2.2.2.2.2.2.2.2.2.2.1
@[simp] theorem gpsHeading_tArsp (x : In) (s : St) : (gpsHeading x s).tArsp = s.tArsp := (gpsHeading_frame x s).2.2.2.2.2.2.2.2.2.2.2.2.2.2.2.2.2.2.2.2.2.2.2.2.2.2.2.2.2.2.2.1
@[simp] theorem gpsHeading_tFake (x : In) (s : St) : (gpsHeading x s).tFake = s.tFake := (gpsHeading_frame x s).2.2.2.2.2.2.2.2.2.2.2.2.2.2.2.2.2.2.2.2.2.2.2.2.2.2.2.2.2.2.2.2.1
@[simp] theorem gpsHeading_tGpsYaw (x : In) (s : St) : (gpsHeading x s).tGpsYaw = s.tGpsYaw := (gpsHeading_frame x s).2.2.2.2.2.2.2.2.2.2.2.2.2.2.2.2.2.2.2.2.2.2.2.2.2.2.2.2.2.2.2.2.2.1
@[simp] theorem gpsHeading_hposPrev (x : In) (s : St) : (gpsHeading x s).hposPrev = s.hposPrev := (gpsHeading_frame x s).2.2.2.2.2.2.2.2.2.2.2.2.2.2.2.2.2.2.2.2.2.2.2.2.2.2.2.2.2.2.2.2.2.2.1
@[simp] theorem gpsHeading_hposOdom (x : In) (s : St) : (gpsHeading x s).hposOdom = s.hposOdom := (gpsHeading_frame x s).2.2.2.2.2.2.2.2.2.2.2.2.2.2.2.2.2.2.2.2.2.2.2.2.2.2.2.2.2.2.2.2.2.2.2.1
@[simp] theorem gpsHeading_synth (x : In) (s : St) : (gpsHeading x s).synth = s.synth := (gpsHeading_frame x s).2.2.2.2.2.2.2.2.2.2.2.2.2.2.2.2.2.2.2.2.2.2.2.2.2.2.2.2.2.2.2.2.2.2.2.2.1
@[simp] theorem gpsHeading_flowReady (x : In) (s : St) : (gpsHeading x s).flowReady = s.flowReady := (gpsHeading_frame x s).2.2.2.2.2.2.2.2.2.2.2.2.2.2.2.2.2.2.2.2.2.2.2.2.2.2.2.2.2.2.2.2.2.2.2.2.2.1
@[simp] theorem gpsHeading_flowInh (x : In) (s : St) : (gpsHeading x s).flowInh = s.flowInh := (gpsHeading_frame x s).2.2.2.2.2.2.2.2.2.2.2.2.2.2.2.2.2.2.2.2.2.2.2.2.2.2.2.2.2.2.2.2.2.2.2.2.2.2.1
@[simp] theorem gpsHeading_tGood (x : In) (s : St) : (gpsHeading x s).tGood = s.tGood := (gpsHeading_frame x s).2.2.2.2.2.2.2.2.2.2.2.2.2.2.2.2.2.2.2.2.2.2.2.2.2.2.2.2.2.2.2.2.2.2.2.2.2.2.2.1
@[simp] theorem gpsHeading_tBad (x : In) (s : St) : (gpsHeading x s).tBad = s.tBad := (gpsHeading_frame x s).2.2.2.2.2.2.2.2.2.2.2.2.2.2.2.2.2.2.2.2.2.2.2.2.2.2.2.2.2.2.2.2.2.2.2.2.2.2.2.2

theorem gpsStart_frame (x : In) (s : St) :
    (gpsStart x s).tilt = s.tilt ∧ (gpsStart x s).optFlow = s.optFlow ∧ (gpsStart x s).magDec = s.magDec ∧ (gpsStart x s).wind = s.wind ∧ (gpsStart x s).evPos = s.evPos ∧ (gpsStart x s).evVel = s.evVel ∧ (gpsStart x s).gpsYaw = s.gpsYaw ∧ (gpsStart x s).magDist = s.magDist ∧ (gpsStart x s).magFault = s.magFault ∧ (gpsStart x s).fuseAspd = s.fuseAspd ∧ (gpsStart x s).magAligned = s.magAligned ∧ (gpsStart x s).magYawReq = s.magYawReq ∧ (gpsStart x s).velposReq = s.velposReq ∧ (gpsStart x s).inhibited = s.inhibited ∧ (gpsStart x s).nonMagPrev = s.nonMagPrev ∧ (gpsStart x s).yawObs = s.yawObs ∧ (gpsStart x s).biasObs = s.biasObs ∧ (gpsStart x s).nBad = s.nBad ∧ (gpsStart x s).tMov = s.tMov ∧ (gpsStart x s).tNotInh = s.tNotInh ∧ (gpsStart x s).tYaw = s.tYaw ∧ (gpsStart x s).gpsYawFaulty = s.gpsYawFaulty ∧ (gpsStart x s).doGsf = s.doGsf ∧ (gpsStart x s).gsfTime = s.gsfTime ∧ (gpsStart x s).gsfCount = s.gsfCount ∧ (gpsStart x s).tPos = s.tPos ∧ (gpsStart x s).tDelpos = s.tDelpos ∧ (gpsStart x s).tVel = s.tVel ∧ (gpsStart x s).tOf = s.tOf ∧ (gpsStart x s).tBeta = s.tBeta ∧ (gpsStart x s).tArsp = s.tArsp ∧ (gpsStart x s).tFake = s.tFake ∧ (gpsStart x s).tGpsYaw = s.tGpsYaw ∧ (gpsStart x s).hposPrev = s.hposPrev ∧ (gpsStart x s).hposOdom = s.hposOdom ∧ (gpsStart x s).synth = s.synth ∧ (gpsStart x s).flowReady = s.flowReady ∧ (gpsStart x s).flowInh = s.flowInh ∧ (gpsStart x s).tGood = s.tGood ∧ (gpsStart x s).tBad = s.tBad := by
  unfold gpsStart; (try dsimp only); split_ifs <;> simp [*]
@[simp] theorem gpsStart_tilt (x : In) (s : St) : (gpsStart x s).tilt = s.tilt := (gpsStart_frame x s).1
@[simp] theorem gpsStart_optFlow (x : In) (s : St) : (gpsStart x s).optFlow = s.optFlow := (gpsStart_frame x s).2.1
@[simp] theorem gpsStart_magDec (x : In) (s : St) : (gpsStart x s).magDec = s.magDec := (gpsStart_frame x s).2.2.1
@[simp] theorem gpsStart_wind (x : In) (s : St) : (gpsStart x s).wind = s.wind := (gpsStart_frame x s).2.2.2.1
@[simp] theorem gpsStart_evPos (x : In) (s : St) : (gpsStart x s).evPos = s.evPos := (gpsStart_frame x s).2.2.2.2.1
@[simp] theorem gpsStart_evVel (x : In) (s : St) : (gpsStart x s).evVel = s.evVel := (gpsStart_frame x s).2.2.2.2.2.1
@[simp] theorem gpsStart_gpsYaw (x : In) (s : St) : (gpsStart x s).gpsYaw = s.gpsYaw := (gpsStart_frame x s).2.2.2.2.2.2.1
@[simp] theorem gpsStart_magDist (x : In) (s : St) : (gpsStart x s).magDist = s.magDist := (gpsStart_frame x s).2.2.2.2.2.2.2.1
@[simp] theorem gpsStart_magFault (x : In) (s : St) : (gpsStart x s).magFault = s.magFault := (gpsStart_frame x s).2.2.2.2.2.2.2.2.1
@[simp] theorem gpsStart_fuseAspd (x : In) (s : St) : (gpsStart x s).fuseAspd = s.fuseAspd := (gpsStart_frame x s).2.2.2.2.2.2.2.2.2.1
@[simp] theorem gpsStart_magAligned (x : In) (s : St) : (gpsStart x s).magAligned = s.magAligned := (gpsStart_frame x s).2.2.2.2.2.2.2.2.2.2.1
@[simp] theorem gpsStart_magYawReq (x : In) (s : St) : (gpsStart x s).magYawReq = s.magYawReq := (gpsStart_frame x s).2.2.2.2.2.2.2.2.2.2.2.1
@[simp] theorem gpsStart_velposReq (x : In) (s : St) : (gpsStart x s).velposReq = s.velposReq := (gpsStart_frame x s).2.2.2.2.2.2.2.2.2.2.2.2.1
@[simp] theorem gpsStart_inhibited (x : In) (s : St) : (gpsStart x s).inhibited = s.inhibited := (gpsStart_frame x s).2.2.2.2.2.2.2.2.2.2.2.2.2.1
@[simp] theorem gpsStart_nonMagPrev (x : In) (s : St) : (gpsStart x s).nonMagPrev = s.nonMagPrev := (gpsStart_frame x s).2.2.2.2.2.2.2.2.2.2.2.2.2.2.1
@[simp] theorem gpsStart_yawObs (x : In) (s : St) : (gpsStart x s).yawObs = s.yawObs := (gpsStart_frame x s).2.2.2.2.2.2.2.2.2.2.2.2.2.2.2.1
@[simp] theorem gpsStart_biasObs (x : In) (s : St) : (gpsStart x s).biasObs = s.biasObs := (gpsStart_frame x s).2.2.2.2.2.2.2.2.2.2.2.2.2.2.2.2.1
@[simp] theorem gpsStart_nBad (x : In) (s : St) : (gpsStart x s).nBad = s.nBad := (gpsStart_frame x s).2.2.2.2.2.2.2.2.2.2.2.2.2.2.2.2.2.1
@[simp] theorem gpsStart_tMov (x : In) (s : St) : (gpsStart x s).tMov = s.tMov := (gpsStart_frame x s).2.2.2.2.2.2.2.2.2.2.2.2.2.2.2.2.2.2.1
@[simp] theorem gpsStart_tNotInh (x : In) (s : St) : (gpsStart x s).tNotInh = s.tNotInh := (gpsStart_frame x s).2.2.2.2.2.2.2.2.2.2.2.2.2.2.2.2.2.2.2.1
@[simp] theorem gpsStart_tYaw (x : In) (s : St) : (gpsStart x s).tYaw = s.tYaw := (gpsStart_frame x s).2.2.2.2.2.2.2.2.2.2.2.2.2.2.2.2.2.2.2.2.1
@[simp] theorem gpsStart_gpsYawFaulty (x : In) (s : St) : (gpsStart x s).gpsYawFaulty = s.gpsYawFaulty := (gpsStart_frame x s).2.2.2.2.2.2.2.2.2.2.2.2.2.2.2.2.2.2.2.2.2.1
@[simp] theorem gpsStart_doGsf (x : In) (s : St) : (gpsStart x s).doGsf = s.doGsf := (gpsStart_frame x s).2.2.2.2.2.2.2.2.2.2.2.2.2.2.2.2.2.2.2.2.2.2.1
@[simp] theorem gpsStart_gsfTime (x : In) (s : St) : (gpsStart x s).gsfTime = s.gsfTime := (gpsStart_frame x s).2.2.2.2.2.2.2.2.2.2.2.2.2.2.2.2.2.2.2.2.2.2.2.1
@[simp] theorem gpsStart_gsfCount (x : In) (s : St) : (gpsStart x s).gsfCount = s.gsfCount := (gpsStart_frame x s).2.2.2.2.2.2.2.2.2.2.2.2.2.2.2.2.2.2.2.2.2.2.2.2.1
@[simp] theorem gpsStart_tPos (x : In) (s : St) : (gpsStart x s).tPos = s.tPos := (gpsStart_frame x s).2.2.2.2.2.2.2.2.2.2.2.2.2.2.2.2.2.2.2.2.2.2.2.2.2.1
@[simp] theorem gpsStart_tDelpos (x : In) (s : St) : (gpsStart x s).tDelpos = s.tDelpos := (gpsStart_frame x s).2.2.2.2.2.2.2.2.2.2.2.2.2.2.2.2.2.2.2.2.2.2.2.2.2.2.1
@[simp] theorem gpsStart_tVel (x : In) (s : St) : (gpsStart x s).tVel = s.tVel := (gpsStart_frame x s).2.2.2.2.2.2.2.2.2.2.2.2.2.2.2.2.2.2.2.2.2.2.2.2.2.2.2.1
@[simp] theorem gpsStart_tOf (x : In) (s : St) : (gpsStart x s).tOf = s.tOf := (gpsStart_frame x s).2.2.2.2.2.2.2.2.2.2.2.2.2.2.2.2.2.2.2.2.2.2.2.2.2.2.2.2.1
@[simp] theorem gpsStart_tBeta (x : In) (s : St) : (gpsStart x s).tBeta = s.tBeta := (gpsStart_frame x s).2.2.2.2.2.2.2.2.2.2.2.2.2.2.2.2.2.2.2.2.2.2.2.2.2.2.2.2.2.1
@[simp] theorem gpsStart_tArsp (x : In) (s : St) : (gpsStart x s).tArsp = s.tArsp := (gpsStart_frame x s).2.2.2.2.2.2.2.2.2.2.2.2.2.2.2.2.2.2.2.2.2.2.2.2.2.2.2.2.2.2.1
@[simp] theorem gpsStart_tFake (x : In) (s : St) : (gpsStart x s).tFake = s.tFake := (gpsStart_frame x s).2.2.2.2.2.2.2.2.2.2.2.2.2.2.2.2.2.2.2.2.2.2.2.2.2.2.2.2.2.2.2.1
@[simp] theorem gpsStart_tGpsYaw (x : In) (s : St) : (gpsStart x s).tGpsYaw = s.tGpsYaw := (gpsStart_frame x s).2.2.2.2.2.2.2.2.2.2.2.2.2.2.2.2.2.2.2.2.2.2.2.2.2.2.2.2.2.2.2.2.1
@[simp] theorem gpsStart_hposPrev (x : In) (s : St) : (gpsStart x s).hposPrev = s.hposPrev := (gpsStart_frame x s).2.2.2.2.2.2.2.2.2.2.2.2.2.2.2.2.2.2.2.2.2.2.2.2.2.2.2.2.2.2.2.2.2.1
@[simp] theorem gpsStart_hposOdom (x : In) (s : St) : (gpsStart x s).hposOdom = s.hposOdom := (gpsStart_frame x s).2.2.2.2.2.2.2.2.2.2.2.2.2.2.2.2.2.2.2.2.2.2.2.2.2.2.2.2.2.2.2.2.2.2.1
@[simp] theorem gpsStart_synth (x : In) (s : St) : (gpsStart x s).synth = s.synth := (gpsStart_frame x s).2.2.2.2.2.2.2.2.2.2.2.2.2.2.2.2.2.2.2.2.2.2.2.2.2.2.2.2.2.2.2.2.2.2.2.1
@[simp] theorem gpsStart_flowReady (x : In) (s : St) : (gpsStart x s).flowReady = s.flowReady := (gpsStart_frame x s).2.2.2.2.2.2.2.2.2.2.2.2.2.2.2.2.2.2.2.2.2.2.2.2.2.2.2.2.2.2.2.2.2.2.2.2.1
@[simp] theorem gpsStart_flowInh (x : In) (s : St) : (gpsStart x s).flowInh = s.flowInh := (gpsStart_frame x s).2.2.2.2.2.2.2.2.2.2.2.2.2.2.2.2.2.2.2.2.2.2.2.2.2.2.2.2.2.2.2.2.2.2.2.2.2.1
@[simp] theorem gpsStart_tGood (x : In) (s : St) : (gpsStart x s).tGood = s.tGood := (gpsStart_frame x s).2.2.2.2.2.2.2.2.2.2.2.2.2.2.2.2.2.2.2.2.2.2.2.2.2.2.2.2.2.2.2.2.2.2.2.2.2.2.1
@[simp] theorem gpsStart_tBad (x : In) (s : St) : (gpsStart x s).tBad = s.tBad := (gpsStart_frame x s).2.2.2.2.2.2.2.2.2.2.2.2.2.2.2.2.2.2.2.2.2.2.2.2.2.2.2.2.2.2.2.2.2.2.2.2.2.2.2

theorem gpsFailing_frame (x : In) (s : St) :
    (gpsFailing x s).tilt = s.tilt ∧ (gpsFailing x s).yawAlign = s.yawAlign ∧ (gpsFailing x s).optFlow = s.optFlow ∧ (gpsFailing x s).magHdg = s.magHdg ∧ (gpsFailing x s).mag3D = s.mag3D ∧ (gpsFailing x s).magDec = s.magDec ∧ (gpsFailing x s).wind = s.wind ∧ (gpsFailing x s).evPos = s.evPos ∧ (gpsFailing x s).evVel = s.evVel ∧ (gpsFailing x s).evYaw = s.evYaw ∧ (gpsFailing x s).magDist = s.magDist ∧ (gpsFailing x s).magFault = s.magFault ∧ (gpsFailing x s).fuseAspd = s.fuseAspd ∧ (gpsFailing x s).magAligned = s.magAligned ∧ (gpsFailing x s).magYawReq = s.magYawReq ∧ (gpsFailing x s).magInhReq = s.magInhReq ∧ (gpsFailing x s).velposReq = s.velposReq ∧ (gpsFailing x s).inhibited = s.inhibited ∧ (gpsFailing x s).nonMagPrev = s.nonMagPrev ∧ (gpsFailing x s).yawObs = s.yawObs ∧ (gpsFailing x s).biasObs = s.biasObs ∧ (gpsFailing x s).nBad = s.nBad ∧ (gpsFailing x s).declCovReset = s.declCovReset ∧ (gpsFailing x s).tAlign = s.tAlign ∧ (gpsFailing x s).tMov = s.tMov ∧ (gpsFailing x s).tNotInh = s.tNotInh ∧ (gpsFailing x s).tYaw = s.tYaw ∧ (gpsFailing x s).gpsYawFaulty = s.gpsYawFaulty ∧ (gpsFailing x s).doGsf = s.doGsf ∧ (gpsFailing x s).gsfTime = s.gsfTime ∧ (gpsFailing x s).gsfCount = s.gsfCount ∧ (gpsFailing x s).tPos = s.tPos ∧ (gpsFailing x s).tDelpos = s.tDelpos ∧ (gpsFailing x s).tVel = s.tVel ∧ (gpsFailing x s).tOf = s.tOf ∧ (gpsFailing x s).tBeta = s.tBeta ∧ (gpsFailing x s).tArsp = s.tArsp ∧ (gpsFailing x s).tFake = s.tFake ∧ (gpsFailing x s).tGpsYaw = s.tGpsYaw ∧ (gpsFailing x s).hposOdom = s.hposOdom ∧ (gpsFailing x s).synth = s.synth ∧ (gpsFailing x s).flowReady = s.flowReady ∧ (gpsFailing x s).flowInh = s.flowInh ∧ (gpsFailing x s).tGood = s.tGood ∧ (gpsFailing x s).tBad = s.tBad := by
  unfold gpsFailing; (try dsimp only); split_ifs <;> simp [*]
@[simp] theorem gpsFailing_tilt (x : In) (s : St) : (gpsFailing x s).tilt = s.tilt := (gpsFailing_frame x s).1
@[simp] theorem gpsFailing_yawAlign (x : In) (s : St) : (gpsFailing x s).yawAlign = s.yawAlign := (gpsFailing_frame x s).2.1
@[simp] theorem gpsFailing_optFlow (x : In) (s : St) : (gpsFailing x s).optFlow = s.optFlow := (gpsFailing_frame x s).2.2.1
@[simp] theorem gpsFailing_magHdg (x : In) (s : St) : (gpsFailing x s).magHdg = s.magHdg := (gpsFailing_frame x s).2.2.2.1
@[simp] theorem gpsFailing_mag3D (x : In) (s : St) : (gpsFailing x s).mag3D = s.mag3D := (gpsFailing_frame x s).2.2.2.2.1
@[simp] theorem gpsFailing_magDec (x : In) (s : St) : (gpsFailing x s).magDec = s.magDec := (gpsFailing_frame x s).2.2.2.2.2.1
@[simp] theorem gpsFailing_wind (x : In) (s : St) : (gpsFailing x s).wind = s.wind := (gpsFailing_frame x s).2.2.2.2.2.2.1
@[simp] theorem gpsFailing_evPos (x : In) (s : St) : (gpsFailing x s).evPos = s.evPos := (gpsFailing_frame x s).2.2.2.2.2.2.2.1
@[simp] theorem gpsFailing_evVel (x : In) (s : St) : (gpsFailing x s).evVel = s.evVel := (gpsFailing_frame x s).2.2.2.2.2.2.2.2.1
@[simp] theorem gpsFailing_evYaw (x : In) (s : St) : (gpsFailing x s).evYaw = s.evYaw := (gpsFailing_frame x s).2.2.2.2.2.2.2.2.2.1
@[simp] theorem gpsFailing_magDist (x : In) (s : St) : (gpsFailing x s).magDist = s.magDist := (gpsFailing_frame x s).2.2.2.2.2.2.2.2.2.2.1
@[simp] theorem gpsFailing_magFault (x : In) (s : St) : (gpsFailing x s).magFault = s.magFault := (gpsFailing_frame x s).2.2.2.2.2.2.2.2.2.2.2.1
@[simp] theorem gpsFailing_fuseAspd (x : In) (s : St) : (gpsFailing x s).fuseAspd = s.fuseAspd := (gpsFailing_frame x s).2.2.2.2.2.2.2.2.2.2.2.2.1
@[simp] theorem gpsFailing_magAligned (x : In) (s : St) : (gpsFailing x s).magAligned = s.magAligned := (gpsFailing_frame x s).2.2.2.2.2.2.2.2.2.2.2.2.2.1
@[simp] theorem gpsFailing_magYawReq (x : In) (s : St) : (gpsFailing x s).magYawReq = s.magYawReq := (gpsFailing_frame x s).2.2.2.2.2.2.2.2.2.2.2.2.2.2.1
@[simp] theorem gpsFailing_magInhReq (x : In) (s : St) : (gpsFailing x s).magInhReq = s.magInhReq := (gpsFailing_frame x s).2.2.2.2.2.2.2.2.2.2.2.2.2.2.2.1
@[simp] theorem gpsFailing_velposReq (x : In) (s : St) : (gpsFailing x s).velposReq = s.velposReq := (gpsFailing_frame x s).2.2.2.2.2.2.2.2.2.2.2.2.2.2.2.2.1
@[simp] theorem gpsFailing_inhibited (x : In) (s : St) : (gpsFailing x s).inhibited = s.inhibited := (gpsFailing_frame x s).2.2.2.2.2.2.2.2.2.2.2.2.2.2.2.2.2.1
@[simp] theorem gpsFailing_nonMagPrev (x : In) (s : St) : (gpsFailing x s).nonMagPrev = s.nonMagPrev := (gpsFailing_frame x s).2.2.2.2.2.2.2.2.2.2.2.2.2.2.2.2.2.2.1
@[simp] theorem gpsFailing_yawObs (x : In) (s : St) : (gpsFailing x s).yawObs = s.yawObs := (gpsFailing_frame x s).2.2.2.2.2.2.2.2.2.2.2.2.2.2.2.2.2.2.2.1
@[simp] theorem gpsFailing_biasObs (x : In) (s : St) : (gpsFailing x s).biasObs = s.biasObs := (gpsFailing_frame x s).2.2.2.2.2.2.2.2.2.2.2.2.2.2.2.2.2.2.2.2.1
@[simp] theorem gpsFailing_nBad (x : In) (s : St) : (gpsFailing x s).nBad = s.nBad := (gpsFailing_frame x s).2.2.2.2.2.2.2.2.2.2.2.2.2.2.2.2.2.2.2.2.2.1
@[simp] theorem gpsFailing_declCovReset (x : In) (s : St) : (gpsFailing x s).declCovReset = s.declCovReset := (gpsFailing_frame x s).2.2.2.2.2.2.2.2.2.2.2.2.2.2.2.2.2.2.2.2.2.2.1
@[simp] theorem gpsFailing_tAlign (x : In) (s : St) : (gpsFailing x s).tAlign = s.tAlign := (gpsFailing_frame x s).2.2.2.2.2.2.2.2.2.2.2.2.2.2.2.2.2.2.2.2.2.2.2.1
@[simp] theorem gpsFailing_tMov (x : In) (s : St) : (gpsFailing x s).tMov = s.tMov := (gpsFailing_frame x s).2.2.2.2.2.2.2.2.2.2.2.2.2.2.2.2.2.2.2.2.2.2.2.2.1
@[simp] theorem gpsFailing_tNotInh (x : In) (s : St) : (gpsFailing x s).tNotInh = s.tNotInh := (gpsFailing_frame x s).2.2.2.2.2.2.2.2.2.2.2.2.2.2.2.2.2.2.2.2.2.2.2.2.2.1
@[simp] theorem gpsFailing_tYaw (x : In) (s : St) : (gpsFailing x s).tYaw = s.tYaw := (gpsFailing_frame x s).2.2.2.2.2.2.2.2.2.2.2.2.2.2.2.2.2.2.2.2.2.2.2.2.2.2.1
@[simp] theorem gpsFailing_gpsYawFaulty (x : In) (s : St) : (gpsFailing x s).gpsYawFaulty = s.gpsYawFaulty := (gpsFailing_frame x s).2.2.2.2.2.2.2.2.2.2.2.2.2.2.2.2.2.2.2.2.2.2.2.2.2.2.2.1
@[simp] theorem gpsFailing_doGsf (x : In) (s : St) : (gpsFailing x s).doGsf = s.doGsf := (gpsFailing_frame x s).2.2.2.2.2.2.2.2.2.2.2.2.2.2.2.2.2.2.2.2.2.2.2.2.2.2.2.2.1
@[simp] theorem gpsFailing_gsfTime (x : In) (s : St) : (gpsFailing x s).gsfTime = s.gsfTime := (gpsFailing_frame x s).2.2.2.2.2.2.2.2.2.2.2.2.2.2.2.2.2.2.2.2.2.2.2.2.2.2.2.2.2.1
@[simp] theorem gpsFailing_gsfCount (x : In) (s : St) : (gpsFailing x s).gsfCount = s.gsfCount := (gpsFailing_frame x s).2.2.2.2.2.2.2.2.2.2.2.2.2.2.2.2.2.2.2.2.2.2.2.2.2.2.2.2.2.2.1
@[simp] theorem gpsFailing_tPos (x : In) (s : St) : (gpsFailing x s).tPos = s.tPos := (gpsFailing_frame x s).2.2.2.2.2.2.2.2.2.2.2.2.2.2.2.2.2.2.2.2.2.2.2.2.2.2.2.2.2.2.2.1
@[simp] theorem gpsFailing_tDelpos (x : In) (s : St) : (gpsFailing x s).tDelpos = s.tDelpos := (gpsFailing_frame x s).2.2.2.2.2.2.2.2.2.2.2.2.2.2.2.2.2.2.2.2.2.2.2.2.2.2.2.2.2.2.2.2.1
@[simp] theorem gpsFailing_tVel (x : In) (s : St) : (gpsFailing x s).tVel = s.tVel := (gpsFailing_frame x s).2.2.2.2.2.2.2.2.2.2.2.2.2.2.2.2.2.2.2.2.2.2.2.2.2.2.2.2.2.2.2.2.2.1
@[simp] theorem gpsFailing_tOf (x : In) (s : St) : (gpsFailing x s).tOf = s.tOf := (gpsFailing_frame x s).2.2.2.2.2.2.2.2.2.2.2.2.2.2.2.2.2.2.2.2.2.2.2.2.2.2.2.2.2.2.2.2.2.2.1
@[simp] theorem gpsFailing_tBeta (x : In) (s : St) : (gpsFailing x s).tBeta = s.tBeta := (gpsFailing_frame x s).2.2.2.2.2.2.2.2.2.2.2.2.2.2.2.2.2.2.2.2.2.2.2.2.2.2.2.2.2.2.2.2.2.2.2.1
@[simp] theorem gpsFailing_tArsp (x : In) (s : St) : (gpsFailing x s).tArsp = s.tArsp := (gpsFailing_frame x s).2.2.2.2.2.2.2.2.2.2.2.2.2.2.2.2.2.2.2.2.2.2.2.2.2.2.2.2.2.2.2.2.2.2.2.2.1
@[simp] theorem gpsFailing_tFake (x : In) (s : St) : (gpsFailing x s).tFake = s.tFake := (gpsFailing_frame x s).2.2.2.2.2.2.2.2.2.2.2.2.2.2.2.2.2.2.2.2.2.2.2.2.2.2.2.2.2.2.2.2.2.2.2.2.2.1
@[simp] theorem gpsFailing_tGpsYaw (x : In) (s : St) : (gpsFailing x s).tGpsYaw = s.tGpsYaw := (gpsFailing_frame x s).2.2.2.2.2.2.2.2.2.2.2.2.2.2.2.2.2.2.2.2.2.2.2.2.2.2.2.2.2.2.2.2.2.2.2.2.2.2.1
@[simp] theorem gpsFailing_hposOdom (x : In) (s : St) : (gpsFailing x s).hposOdom = s.hposOdom := (gpsFailing_frame x s).2.2.2.2.2.2.2.2.2.2.2.2.2.2.2.2.2.2.2.2.2.2.2.2.2.2.2.2.2.2.2.2.2.2.2.2.2.2.2.1
@[simp] theorem gpsFailing_synth (x : In) (s : St) : (gpsFailing x s).synth = s.synth := (gpsFailing_frame x s).2.2.2.2.2.2.2.2.2.2.2.2.2.2.2.2.2.2.2.2.2.2.2.2.2.2.2.2.2.2.2.2.2.2.2.2.2.2.2.2.1
@[simp] theorem gpsFailing_flowReady (x : In) (s : St) : (gpsFailing x s).flowReady = s.flowReady := (gpsFailing_frame x s).2.2.2.2.2.2.2.2.2.2.2.2.2.2.2.2.2.2.2.2.2.2.2.2.2.2.2.2.2.2.2.2.2.2.2.2.2.2.2.2.2.1
@[simp] theorem gpsFailing_flowInh (x : In) (s : St) : (gpsFailing x s).flowInh = s.flowInh := (gpsFailing_frame x s).2.2.2.2.2.2.2.2.2.2.2.2.2.2.2.2.2.2.2.2.2.2.2.2.2.2.2.2.2.2.2.2.2.2.2.2.2.2.2.2.2.2.1
@[simp] theorem gpsFailing_tGood (x : In) (s : St) : (gpsFailing x s).tGood = s.tGood := (gpsFailing_frame x s).2.2.2.2.2.2.2.2.2.2.2.2.2.2.2.2.2.2.2.2.2.2.2.2.2.2.2.2.2.2.2.2.2.2.2.2.2.2.2.2.2.2.2.1
@[simp] theorem gpsFailing_tBad (x : In) (s : St) : (gpsFailing x s).tBad = s.tBad := (gpsFailing_frame x s).2.2.2.2.2.2.2.2.2.2.2.2.2.2.2.2.2.2.2.2.2.2.2.2.2.2.2.2.2.2.2.2.2.2.2.2.2.2.2.2.2.2.2.2

theorem gsfAlign_frame (x : In) (s : St) :
    (gsfAlign x s).tilt = s.tilt ∧ (gsfAlign x s).gps = s.gps ∧ (gsfAlign x s).optFlow = s.optFlow ∧ (gsfAlign x s).magHdg = s.magHdg ∧ (gsfAlign x s).mag3D = s.mag3D ∧ (gsfAlign x s).magDec = s.magDec ∧ (gsfAlign x s).wind = s.wind ∧ (gsfAlign x s).evPos = s.evPos ∧ (gsfAlign x s).evVel = s.evVel ∧ (gsfAlign x s).evYaw = s.evYaw ∧ (gsfAlign x s).gpsYaw = s.gpsYaw ∧ (gsfAlign x s).magDist = s.magDist ∧ (gsfAlign x s).fuseAspd = s.fuseAspd ∧ (gsfAlign x s).magAligned = s.magAligned ∧ (gsfAlign x s).magYawReq = s.magYawReq ∧ (gsfAlign x s).magInhReq = s.magInhReq ∧ (gsfAlign x s).velposReq = s.velposReq ∧ (gsfAlign x s).inhibited = s.inhibited ∧ (gsfAlign x s).nonMagPrev = s.nonMagPrev ∧ (gsfAlign x s).yawObs = s.yawObs ∧ (gsfAlign x s).biasObs = s.biasObs ∧ (gsfAlign x s).nBad = s.nBad ∧ (gsfAlign x s).declCovReset = s.declCovReset ∧ (gsfAlign x s).tMov = s.tMov ∧ (gsfAlign x s).tNotInh = s.tNotInh ∧ (gsfAlign x s).tYaw = s.tYaw ∧ (gsfAlign x s).gpsYawFaulty = s.gpsYawFaulty ∧ (gsfAlign x s).gsfCount = s.gsfCount ∧ (gsfAlign x s).tPos = s.tPos ∧ (gsfAlign x s).tDelpos = s.tDelpos ∧ (gsfAlign x s).tVel = s.tVel ∧ (gsfAlign x s).tOf = s.tOf ∧ (gsfAlign x s).tBeta = s.tBeta ∧ (gsfAlign x s).tArsp = s.tArsp ∧ (gsfAlign x s).tFake = s.tFake ∧ (gsfAlign x s).tGpsYaw = s.tGpsYaw ∧ (gsfAlign x s).hposOdom = s.hposOdom ∧ (gsfAlign x s).synth = s.synth ∧ (gsfAlign x s).flowReady = s.flowReady ∧ (gsfAlign x s).flowInh = s.flowInh ∧ (gsfAlign x s).tGood = s.tGood ∧ (gsfAlign x s).tBad = s.tBad := by
  unfold gsfAlign; (try dsimp only); split_ifs <;> simp [*]
@[simp] theorem gsfAlign_tilt (x : In) (s : St) : (gsfAlign x s).tilt = s.tilt := (gsfAlign_frame x s).1
@[simp] theorem gsfAlign_gps (x : In) (s : St) : (gsfAlign x s).gps = s.gps := (gsfAlign_frame x s).2.1
@[simp] theorem gsfAlign_optFlow (x : In) (s : St) : (gsfAlign x s).optFlow = s.optFlow := (gsfAlign_frame x s).2.2.1
@[simp] theorem gsfAlign_magHdg (x : In) (s : St) : (gsfAlign x s).magHdg = s.magHdg := (gsfAlign_frame x s).2.2.2.1
@[simp] theorem gsfAlign_mag3D (x : In) (s : St) : (gsfAlign x s).mag3D = s.mag3D := (gsfAlign_frame x s).2.2.2.2.1
@[simp] theorem gsfAlign_magDec (x : In) (s : St) : (gsfAlign x s).magDec = s.magDec := (gsfAlign_frame x s).2.2.2.2.2.1
@[simp] theorem gsfAlign_wind (x : In) (s : St) : (gsfAlign x s).wind = s.wind := (gsfAlign_frame x s).2.2.2.2.2.2.1
@[simp] theorem gsfAlign_evPos (x : In) (s : St) : (gsfAlign x s).evPos = s.evPos := (gsfAlign_frame x s).2.2.2.2.2.2.2.1
@[simp] theorem gsfAlign_evVel (x : In) (s : St) : (gsfAlign x s).evVel = s.evVel := (gsfAlign_frame x s).2.2.2.2.2.2.2.2.1
@[simp] theorem gsfAlign_evYaw (x : In) (s : St) : (gsfAlign x s).evYaw = s.evYaw := (gsfAlign_frame x s).2.2.2.2.2.2.2.2.2.1
@[simp] theorem gsfAlign_gpsYaw (x : In) (s : St) : (gsfAlign x s).gpsYaw = s.gpsYaw := (gsfAlign_frame x s).2.2.2.2.2.2.2.2.2.2.1
@[simp] theorem gsfAlign_magDist (x : In) (s : St) : (gsfAlign x s).magDist = s.magDist := (gsfAlign_frame x s).2.2.2.2.2.2.2.2.2.2.2.1
@[simp] theorem gsfAlign_fuseAspd (x : In) (s : St) : (gsfAlign x s).fuseAspd = s.fuseAspd := (gsfAlign_frame x s).2.2.2.2.2.2.2.2.2.2.2.2.1
@[simp] theorem gsfAlign_magAligned (x : In) (s : St) : (gsfAlign x s).magAligned = s.magAligned := (gsfAlign_frame x s).2.2.2.2.2.2.2.2.2.2.2.2.2.1
@[simp] theorem gsfAlign_magYawReq (x : In) (s : St) : (gsfAlign x s).magYawReq = s.magYawReq := (gsfAlign_frame x s).2.2.2.2.2.2.2.2.2.2.2.2.2.2.1
@[simp] theorem gsfAlign_magInhReq (x : In) (s : St) : (gsfAlign x s).magInhReq = s.magInhReq := (gsfAlign_frame x s).2.2.2.2.2.2.2.2.2.2.2.2.2.2.2.1
@[simp] theorem gsfAlign_velposReq (x : In) (s : St) : (gsfAlign x s).velposReq = s.velposReq := (gsfAlign_frame x s).2.2.2.2.2.2.2.2.2.2.2.2.2.2.2.2.1
@[simp] theorem gsfAlign_inhibited (x : In) (s : St) : (gsfAlign x s).inhibited = s.inhibited := (gsfAlign_frame x s).2.2.2.2.2.2.2.2.2.2.2.2.2.2.2.2.2.1
@[simp] theorem gsfAlign_nonMagPrev (x : In) (s : St) : (gsfAlign x s).nonMagPrev = s.nonMagPrev := (gsfAlign_frame x s).2.2.2.2.2.2.2.2.2.2.2.2.2.2.2.2.2.2.1
@[simp] theorem gsfAlign_yawObs (x : In) (s : St) : (gsfAlign x s).yawObs = s.yawObs := (gsfAlign_frame x s).2.2.2.2.2.2.2.2.2.2.2.2.2.2.2.2.2.2.2.1
@[simp] theorem gsfAlign_biasObs (x : In) (s : St) : (gsfAlign x s).biasObs = s.biasObs := (gsfAlign_frame x s).2.2.2.2.2.2.2.2.2.2.2.2.2.2.2.2.2.2.2.2.1
@[simp] theorem gsfAlign_nBad (x : In) (s : St) : (gsfAlign x s).nBad = s.nBad := (gsfAlign_frame x s).2.2.2.2.2.2.2.2.2.2.2.2.2.2.2.2.2.2.2.2.2.1
@[simp] theorem gsfAlign_declCovReset (x : In) (s : St) : (gsfAlign x s).declCovReset = s.declCovReset := (gsfAlign_frame x s).2.2.2.2.2.2.2.2.2.2.2.2.2.2.2.2.2.2.2.2.2.2.1
@[simp] theorem gsfAlign_tMov (x : In) (s : St) : (gsfAlign x s).tMov = s.tMov := (gsfAlign_frame x s).2.2.2.2.2.2.2.2.2.2.2.2.2.2.2.2.2.2.2.2.2.2.2.1
@[simp] theorem gsfAlign_tNotInh (x : In) (s : St) : (gsfAlign x s).tNotInh = s.tNotInh := (gsfAlign_frame x s).2.2.2.2.2.2.2.2.2.2.2.2.2.2.2.2.2.2.2.2.2.2.2.2.1
@[simp] theorem gsfAlign_tYaw (x : In) (s : St) : (gsfAlign x s).tYaw = s.tYaw := (gsfAlign_frame x s).2.2.2.2.2.2.2.2.2.2.2.2.2.2.2.2.2.2.2.2.2.2.2.2.2.1
@[simp] theorem gsfAlign_gpsYawFaulty (x : In) (s : St) : (gsfAlign x s).gpsYawFaulty = s.gpsYawFaulty := (gsfAlign_frame x s).2.2.2.2.2.2.2.2.2.2.2.2.2.2.2.2.2.2.2.2.2.2.2.2.2.2.1
@[simp] theorem gsfAlign_gsfCount (x : In) (s : St) : (gsfAlign x s).gsfCount = s.gsfCount := (gsfAlign_frame x s).2.2.2.2.2.2.2.2.2.2.2.2.2.2.2.2.2.2.2.2.2.2.2.2.2.2.2.1
@[simp] theorem gsfAlign_tPos (x : In) (s : St) : (gsfAlign x s).tPos = s.tPos := (gsfAlign_frame x s).2.2.2.2.2.2.2.2.2.2.2.2.2.2.2.2.2.2.2.2.2.2.2.2.2.2.2.2.1
@[simp] theorem gsfAlign_tDelpos (x : In) (s : St) : (gsfAlign x s).tDelpos = s.tDelpos := (gsfAlign_frame x s).2.2.2.2.2.2.2.2.2.2.2.2.2.2.2.2.2.2.2.2.2.2.2.2.2.2.2.2.2.1
@[simp] theorem gsfAlign_tVel (x : In) (s : St) : (gsfAlign x s).tVel = s.tVel := (gsfAlign_frame x s).2.2.2.2.2.2.2.2.2.2.2.2.2.2.2.2.2.2.2.2.2.2.2.2.2.2.2.2.2.2.1
@[simp] theorem gsfAlign_tOf (x : In) (s : St) : (gsfAlign x s).tOf = s.tOf := (gsfAlign_frame x s).2.2.2.2.2.2.2.2.2.2.2.2.2.2.2.2.2.2.2.2.2.2.2.2.2.2.2.2.2.2.2.1
@[simp] theorem gsfAlign_tBeta (x : In) (s : St) : (gsfAlign x s).tBeta = s.tBeta := (gsfAlign_frame x s).2.2.2.2.2.2.2.2.2.2.2.2.2.2.2.2.2.2.2.2.2.2.2.2.2.2.2.2.2.2.2.2.1
@[simp] theorem gsfAlign_tArsp (x : In) (s : St) : (gsfAlign x s).tArsp = s.tArsp := (gsfAlign_frame x s).2.2.2.2.2.2.2.2.2.2.2.2.2.2.2.2.2.2.2.2.2.2.2.2.2.2.2.2.2.2.2.2.2.1
@[simp] theorem gsfAlign_tFake (x : In) (s : St) : (gsfAlign x s).tFake = s.tFake := (gsfAlign_frame x s).2.2.2.2.2.2.2.2.2.2.2.2.2.2.2.2.2.2.2.2.2.2.2.2.2.2.2.2.2.2.2.2.2.2.1
@[simp] theorem gsfAlign_tGpsYaw (x : In) (s : St) : (gsfAlign x s).tGpsYaw = s.tGpsYaw := (gsfAlign_frame x s).2.2.2.2.2.2.2.2.2.2.2.2.2.2.2.2.2.2.2.2.2.2.2.2.2.2.2.2.2.2.2.2.2.2.2.1
@[simp] theorem gsfAlign_hposOdom (x : In) (s : St) : (gsfAlign x s).hposOdom = s.hposOdom := (gsfAlign_frame x s).2.2.2.2.2.2.2.2.2.2.2.2.2.2.2.2.2.2.2.2.2.2.2.2.2.2.2.2.2.2.2.2.2.2.2.2.1
@[simp] theorem gsfAlign_synth (x : In) (s : St) : (gsfAlign x s).synth = s.synth := (gsfAlign_frame x s).2.2.2.2.2.2.2.2.2.2.2.2.2.2.2.2.2.2.2.2.2.2.2.2.2.2.2.2.2.2.2.2.2.2.2.2.2.1
@[simp] theorem gsfAlign_flowReady (x : In) (s : St) : (gsfAlign x s).flowReady = s.flowReady := (gsfAlign_frame x s).2.2.2.2.2.2.2.2.2.2.2.2.2.2.2.2.2.2.2.2.2.2.2.2.2.2.2.2.2.2.2.2.2.2.2.2.2.2.1
@[simp] theorem gsfAlign_flowInh (x : In) (s : St) : (gsfAlign x s).flowInh = s.flowInh := (gsfAlign_frame x s).2.2.2.2.2.2.2.2.2.2.2.2.2.2.2.2.2.2.2.2.2.2.2.2.2.2.2.2.2.2.2.2.2.2.2.2.2.2.2.1
@[simp] theorem gsfAlign_tGood (x : In) (s : St) : (gsfAlign x s).tGood = s.tGood := (gsfAlign_frame x s).2.2.2.2.2.2.2.2.2.2.2.2.2.2.2.2.2.2.2.2.2.2.2.2.2.2.2.2.2.2.2.2.2.2.2.2.2.2.2.2.1
@[simp] theorem gsfAlign_tBad (x : In) (s : St) : (gsfAlign x s).tBad = s.tBad := (gsfAlign_frame x s).2.2.2.2.2.2.2.2.2.2.2.2.2.2.2.2.2.2.2.2.2.2.2.2.2.2.2.2.2.2.2.2.2.2.2.2.2.2.2.2.2

theorem gsfReset_frame (x : In) (s : St) :
    (gsfReset x s).tilt = s.tilt ∧ (gsfReset x s).gps = s.gps ∧ (gsfReset x s).optFlow = s.optFlow ∧ (gsfReset x s).magHdg = s.magHdg ∧ (gsfReset x s).mag3D = s.mag3D ∧ (gsfReset x s).magDec = s.magDec ∧ (gsfReset x s).wind = s.wind ∧ (gsfReset x s).evPos = s.evPos ∧ (gsfReset x s).evVel = s.evVel ∧ (gsfReset x s).evYaw = s.evYaw ∧ (gsfReset x s).gpsYaw = s.gpsYaw ∧ (gsfReset x s).magDist = s.magDist ∧ (gsfReset x s).fuseAspd = s.fuseAspd ∧ (gsfReset x s).magAligned = s.magAligned ∧ (gsfReset x s).magYawReq = s.magYawReq ∧ (gsfReset x s).magInhReq = s.magInhReq ∧ (gsfReset x s).velposReq = s.velposReq ∧ (gsfReset x s).inhibited = s.inhibited ∧ (gsfReset x s).nonMagPrev = s.nonMagPrev ∧ (gsfReset x s).yawObs = s.yawObs ∧ (gsfReset x s).biasObs = s.biasObs ∧ (gsfReset x s).nBad = s.nBad ∧ (gsfReset x s).declCovReset = s.declCovReset ∧ (gsfReset x s).tMov = s.tMov ∧ (gsfReset x s).tNotInh = s.tNotInh ∧ (gsfReset x s).tYaw = s.tYaw ∧ (gsfReset x s).gpsYawFaulty = s.gpsYawFaulty ∧ (gsfReset x s).tBeta = s.tBeta ∧ (gsfReset x s).tArsp = s.tArsp ∧ (gsfReset x s).tFake = s.tFake ∧ (gsfReset x s).tGpsYaw = s.tGpsYaw ∧ (gsfReset x s).hposOdom = s.hposOdom ∧ (gsfReset x s).synth = s.synth ∧ (gsfReset x s).flowReady = s.flowReady ∧ (gsfReset x s).flowInh = s.flowInh ∧ (gsfReset x s).tGood = s.tGood ∧ (gsfReset x s).tBad = s.tBad := by
  unfold gsfReset; (try dsimp only); split_ifs <;> simp [*]
@[simp] theorem gsfReset_tilt (x : In) (s : St) : (gsfReset x s).tilt = s.tilt := (gsfReset_frame x s).1
@[simp] theorem gsfReset_gps (x : In) (s : St) : (gsfReset x s).gps = s.gps := (gsfReset_frame x s).2.1
@[simp] theorem gsfReset_optFlow (x : In) (s : St) : (gsfReset x s).optFlow = s.optFlow := (gsfReset_frame x s).2.2.1
@[simp] theorem gsfReset_magHdg (x : In) (s : St) : (gsfReset x s).magHdg = s.magHdg := (gsfReset_frame x s).2.2.2.1
@[simp] theorem gsfReset_mag3D (x : In) (s : St) : (gsfReset x s).mag3D = s.mag3D := (gsfReset_frame x s).2.2.2.2.1
@[simp] theorem gsfReset_magDec (x : In) (s : St) : (gsfReset x s).magDec = s.magDec := (gsfReset_frame x s).2.2.2.2.2.1
@[simp] theorem gsfReset_wind (x : In) (s : St) : (gsfReset x s).wind = s.wind := (gsfReset_frame x s).2.2.2.2.2.2.1
@[simp] theorem gsfReset_evPos (x : In) (s : St) : (gsfReset x s).evPos = s.evPos := (gsfReset_frame x s).2.2.2.2.2.2.2.1
@[simp] theorem gsfReset_evVel (x : In) (s : St) : (gsfReset x s).evVel = s.evVel := (gsfReset_frame x s).2.2.2.2.2.2.2.2.1
@[simp] theorem gsfReset_evYaw (x : In) (s : St) : (gsfReset x s).evYaw = s.evYaw := (gsfReset_frame x s).2.2.2.2.2.2.2.2.2.1
@[simp] theorem gsfReset_gpsYaw (x : In) (s : St) : (gsfReset x s).gpsYaw = s.gpsYaw := (gsfReset_frame x s).2.2.2.2.2.2.2.2.2.2.1
@[simp] theorem gsfReset_magDist (x : In) (s : St) : (gsfReset x s).magDist = s.magDist := (gsfReset_frame x s).2.2.2.2.2.2.2.2.2.2.2.1
@[simp] theorem gsfReset_fuseAspd (x : In) (s : St) : (gsfReset x s).fuseAspd = s.fuseAspd := (gsfReset_frame x s).2.2.2.2.2.2.2.2.2.2.2.2.1
@[simp] theorem gsfReset_magAligned (x : In) (s : St) : (gsfReset x s).magAligned = s.magAligned := (gsfReset_frame x s).2.2.2.2.2.2.2.2.2.2.2.2.2.1
@[simp] theorem gsfReset_magYawReq (x : In) (s : St) : (gsfReset x s).magYawReq = s.magYawReq := (gsfReset_frame x s).2.2.2.2.2.2.2.2.2.2.2.2.2.2.1
@[simp] theorem gsfReset_magInhReq (x : In) (s : St) : (gsfReset x s).magInhReq = s.magInhReq := (gsfReset_frame x s).2.2.2.2.2.2.2.2.2.2.2.2.2.2.2.1
@[simp] theorem gsfReset_velposReq (x : In) (s : St) : (gsfReset x s).velposReq = s.velposReq := (gsfReset_frame x s).2.2.2.2.2.2.2.2.2.2.2.2.2.2.2.2.1
@[simp] theorem gsfReset_inhibited (x : In) (s : St) : (gsfReset x s).inhibited = s.inhibited := (gsfReset_frame x s).2.2.2.2.2.2.2.2.2.2.2.2.2.2.2.2.2.1
@[simp] theorem gsfReset_nonMagPrev (x : In) (s : St) : (gsfReset x s).nonMagPrev = s.nonMagPrev := (gsfReset_frame x s).2.2.2.2.2.2.2.2.2.2.2.2.2.2.2.2.2.2.1
@[simp] theorem gsfReset_yawObs (x : In) (s : St) : (gsfReset x s).yawObs = s.yawObs := (gsfReset_frame x s).2.2.2.2.2.2.2.2.2.2.2.2.2.2.2.2.2.2.2.1
@[simp] theorem gsfReset_biasObs (x : In) (s : St) : (gsfReset x s).biasObs = s.biasObs := (gsfReset_frame x s).2.2.2.2.2.2.2.2.2.2.2.2.2.2.2.2.2.2.2.2.1
@[simp] theorem gsfReset_nBad (x : In) (s : St) : (gsfReset x s).nBad = s.nBad := (gsfReset_frame x s).2.2.2.2.2.2.2.2.2.2.2.2.2.2.2.2.2.2.2.2.2.1
@[simp] theorem gsfReset_declCovReset (x : In) (s : St) : (gsfReset x s).declCovReset = s.declCovReset := (gsfReset_frame x s).2.2.2.2.2.2.2.2.2.2.2.2.2.2.2.2.2.2.2.2.2.2.1
@[simp] theorem gsfReset_tMov (x : In) (s : St) : (gsfReset x s).tMov = s.tMov := (gsfReset_frame x s).2.2.2.2.2.2.2.2.2.2.2.2.2.2.2.2.2.2.2.2.2.2.2.1
@[simp] theorem gsfReset_tNotInh (x : In) (s : St) : (gsfReset x s).tNotInh = s.tNotInh := (gsfReset_frame x s).2.2.2.2.2.2.2.2.2.2.2.2.2.2.2.2.2.2.2.2.2.2.2.2.1
@[simp] theorem gsfReset_tYaw (x : In) (s : St) : (gsfReset x s).tYaw = s.tYaw := (gsfReset_frame x s).2.2.2.2.2.2.2.2.2.2.2.2.2.2.2.2.2.2.2.2.2.2.2.2.2.1
@[simp] theorem gsfReset_gpsYawFaulty (x : In) (s : St) : (gsfReset x s).gpsYawFaulty = s.gpsYawFaulty := (gsfReset_frame x s).2.2.2.2.2.2.2.2.2.2.2.2.2.2.2.2.2.2.2.2.2.2.2.2.2.2.1
@[simp] theorem gsfReset_tBeta (x : In) (s : St) : (gsfReset x s).tBeta = s.tBeta := (gsfReset_frame x s).2.2.2.2.2.2.2.2.2.2.2.2.2.2.2.2.2.2.2.2.2.2.2.2.2.2.2.1
@[simp] theorem gsfReset_tArsp (x : In) (s : St) : (gsfReset x s).tArsp = s.tArsp := (gsfReset_frame x s).2.2.2.2.2.2.2.2.2.2.2.2.2.2.2.2.2.2.2.2.2.2.2.2.2.2.2.2.1
@[simp] theorem gsfReset_tFake (x : In) (s : St) : (gsfReset x s).tFake = s.tFake := (gsfReset_frame x s).2.2.2.2.2.2.2.2.2.2.2.2.2.2.2.2.2.2.2.2.2.2.2.2.2.2.2.2.2.1
@[simp] theorem gsfReset_tGpsYaw (x : In) (s : St) : (gsfReset x s).tGpsYaw = s.tGpsYaw := (gsfReset_frame x s).2.2.2.2.2.2.2.2.2.2.2.2.2.2.2.2.2.2.2.2.2.2.2.2.2.2.2.2.2.2.1
@[simp] theorem gsfReset_hposOdom (x : In) (s : St) : (gsfReset x s).hposOdom = s.hposOdom := (gsfReset_frame x s).2.2.2.2.2.2.2.2.2.2.2.2.2.2.2.2.2.2.2.2.2.2.2.2.2.2.2.2.2.2.2.1
@[simp] theorem gsfReset_synth (x : In) (s : St) : (gsfReset x s).synth = s.synth := (gsfReset_frame x s).2.2.2.2.2.2.2.2.2.2.2.2.2.2.2.2.2.2.2.2.2.2.2.2.2.2.2.2.2.2.2.2.1
@[simp] theorem gsfReset_flowReady (x : In) (s : St) : (gsfReset x s).flowReady = s.flowReady := (gsfReset_frame x s).2.2.2.2.2.2.2.2.2.2.2.2.2.2.2.2.2.2.2.2.2.2.2.2.2.2.2.2.2.2.2.2.2.1
@[simp] theorem gsfReset_flowInh (x : In) (s : St) : (gsfReset x s).flowInh = s.flowInh := (gsfReset_frame x s).2.2.2.2.2.2.2.2.2.2.2.2.2.2.2.2.2.2.2.2.2.2.2.2.2.2.2.2.2.2.2.2.2.2.1
@[simp] theorem gsfReset_tGood (x : In) (s : St) : (gsfReset x s).tGood = s.tGood := (gsfReset_frame x s).2.2.2.2.2.2.2.2.2.2.2.2.2.2.2.2.2.2.2.2.2.2.2.2.2.2.2.2.2.2.2.2.2.2.2.1
@[simp] theorem gsfReset_tBad (x : In) (s : St) : (gsfReset x s).tBad = s.tBad := (gsfReset_frame x s).2.2.2.2.2.2.2.2.2.2.2.2.2.2.2.2.2.2.2.2.2.2.2.2.2.2.2.2.2.2.2.2.2.2.2.2

theorem gpsTimeoutReset_frame (x : In) (s : St) :
    (gpsTimeoutReset x s).tilt = s.tilt ∧ (gpsTimeoutReset x s).yawAlign = s.yawAlign ∧ (gpsTimeoutReset x s).gps = s.gps ∧ (gpsTimeoutReset x s).optFlow = s.optFlow ∧ (gpsTimeoutReset x s).magDec = s.magDec ∧ (gpsTimeoutReset x s).wind = s.wind ∧ (gpsTimeoutReset x s).evPos = s.evPos ∧ (gpsTimeoutReset x s).evVel = s.evVel ∧ (gpsTimeoutReset x s).evYaw = s.evYaw ∧ (gpsTimeoutReset x s).gpsYaw = s.gpsYaw ∧ (gpsTimeoutReset x s).magDist = s.magDist ∧ (gpsTimeoutReset x s).fuseAspd = s.fuseAspd ∧ (gpsTimeoutReset x s).magYawReq = s.magYawReq ∧ (gpsTimeoutReset x s).magInhReq = s.magInhReq ∧ (gpsTimeoutReset x s).inhibited = s.inhibited ∧ (gpsTimeoutReset x s).nonMagPrev = s.nonMagPrev ∧ (gpsTimeoutReset x s).yawObs = s.yawObs ∧ (gpsTimeoutReset x s).biasObs = s.biasObs ∧ (gpsTimeoutReset x s).tMov = s.tMov ∧ (gpsTimeoutReset x s).tNotInh = s.tNotInh ∧ (gpsTimeoutReset x s).tYaw = s.tYaw ∧ (gpsTimeoutReset x s).gpsYawFaulty = s.gpsYawFaulty ∧ (gpsTimeoutReset x s).doGsf = s.doGsf ∧ (gpsTimeoutReset x s).gsfTime = s.gsfTime ∧ (gpsTimeoutReset x s).gsfCount = s.gsfCount ∧ (gpsTimeoutReset x s).tDelpos = s.tDelpos ∧ (gpsTimeoutReset x s).tOf = s.tOf ∧ (gpsTimeoutReset x s).tBeta = s.tBeta ∧ (gpsTimeoutReset x s).tArsp = s.tArsp ∧ (gpsTimeoutReset x s).tFake = s.tFake ∧ (gpsTimeoutReset x s).tGpsYaw = s.tGpsYaw ∧ (gpsTimeoutReset x s).hposOdom = s.hposOdom ∧ (gpsTimeoutReset x s).synth = s.synth ∧ (gpsTimeoutReset x s).flowReady = s.flowReady ∧ (gpsTimeoutReset x s).flowInh = s.flowInh ∧ (gpsTimeoutReset x s).tGood = s.tGood ∧ (gpsTimeoutReset x s).tBad = s.tBad := by
  unfold gpsTimeoutReset; (try dsimp only); split_ifs <;> simp [*]
@[simp] theorem gpsTimeoutReset_tilt (x : In) (s : St) : (gpsTimeoutReset x s).tilt = s.tilt := (gpsTimeoutReset_frame x s).1
@[simp] theorem gpsTimeoutReset_yawAlign (x : In) (s : St) : (gpsTimeoutReset x s).yawAlign = s.yawAlign := (gpsTimeoutReset_frame x s).2.1
@[simp] theorem gpsTimeoutReset_gps (x : In) (s : St) : (gpsTimeoutReset x s).gps = s.gps := (gpsTimeoutReset_frame x s).2.2.1
@[simp] theorem gpsTimeoutReset_optFlow (x : In) (s : St) : (gpsTimeoutReset x s).optFlow = s.optFlow := (gpsTimeoutReset_frame x s).2.2.2.1
@[simp] theorem gpsTimeoutReset_magDec (x : In) (s : St) : (gpsTimeoutReset x s).magDec = s.magDec := (gpsTimeoutReset_frame x s).2.2.2.2.1
@[simp] theorem gpsTimeoutReset_wind (x : In) (s : St) : (gpsTimeoutReset x s).wind = s.wind := (gpsTimeoutReset_frame x s).2.2.2.2.2.1
@[simp] theorem gpsTimeoutReset_evPos (x : In) (s : St) : (gpsTimeoutReset x s).evPos = s.evPos := (gpsTimeoutReset_frame x s).2.2.2.2.2.2.1
@[simp] theorem gpsTimeoutReset_evVel (x : In) (s : St) : (gpsTimeoutReset x s).evVel = s.evVel := (gpsTimeoutReset_frame x s).2.2.2.2.2.2.2.1
@[simp] theorem gpsTimeoutReset_evYaw (x : In) (s : St) : (gpsTimeoutReset x s).evYaw = s.evYaw := (gpsTimeoutReset_frame x s).2.2.2.2.2.2.2.2.1
@[simp] theorem gpsTimeoutReset_gpsYaw (x : In) (s : St) : (gpsTimeoutReset x s).gpsYaw = s.gpsYaw := (gpsTimeoutReset_frame x s).2.2.2.2.2.2.2.2.2.1
@[simp] theorem gpsTimeoutReset_magDist (x : In) (s : St) : (gpsTimeoutReset x s).magDist = s.magDist := (gpsTimeoutReset_frame x s).2.2.2.2.2.2.2.2.2.2.1
@[simp] theorem gpsTimeoutReset_fuseAspd (x : In) (s : St) : (gpsTimeoutReset x s).fuseAspd = s.fuseAspd := (gpsTimeoutReset_frame x s).2.2.2.2.2.2.2.2.2.2.2.1
@[simp] theorem gpsTimeoutReset_magYawReq (x : In) (s : St) : (gpsTimeoutReset x s).magYawReq = s.magYawReq := (gpsTimeoutReset_frame x s).2.2.2.2.2.2.2.2.2.2.2.2.1
@[simp] theorem gpsTimeoutReset_magInhReq (x : In) (s : St) : (gpsTimeoutReset x s).magInhReq = s.magInhReq := (gpsTimeoutReset_frame x s).2.2.2.2.2.2.2.2.2.2.2.2.2.1
@[simp] theorem gpsTimeoutReset_inhibited (x : In) (s : St) : (gpsTimeoutReset x s).inhibited = s.inhibited := (gpsTimeoutReset_frame x s).2.2.2.2.2.2.2.2.2.2.2.2.2.2.1
@[simp] theorem gpsTimeoutReset_nonMagPrev (x : In) (s : St) : (gpsTimeoutReset x s).nonMagPrev = s.nonMagPrev := (gpsTimeoutReset_frame x s).2.2.2.2.2.2.2.2.2.2.2.2.2.2.2.1
@[simp] theorem gpsTimeoutReset_yawObs (x : In) (s : St) : (gpsTimeoutReset x s).yawObs = s.yawObs := (gpsTimeoutReset_frame x s).2.2.2.2.2.2.2.2.2.2.2.2.2.2.2.2.1
@[simp] theorem gpsTimeoutReset_biasObs (x : In) (s : St) : (gpsTimeoutReset x s).biasObs = s.biasObs := (gpsTimeoutReset_frame x s).2.2.2.2.2.2.2.2.2.2.2.2.2.2.2.2.2.1
@[simp] theorem gpsTimeoutReset_tMov (x : In) (s : St) : (gpsTimeoutReset x s).tMov = s.tMov := (gpsTimeoutReset_frame x s).2.2.2.2.2.2.2.2.2.2.2.2.2.2.2.2.2.2.1
@[simp] theorem gpsTimeoutReset_tNotInh (x : In) (s : St) : (gpsTimeoutReset x s).tNotInh = s.tNotInh := (gpsTimeoutReset_frame x s).2.2.2.2.2.2.2.2.2.2.2.2.2.2.2.2.2.2.2.1
@[simp] theorem gpsTimeoutReset_tYaw (x : In) (s : St) : (gpsTimeoutReset x s).tYaw = s.tYaw := (gpsTimeoutReset_frame x s).2.2.2.2.2.2.2.2.2.2.2.2.2.2.2.2.2.2.2.2.1
@[simp] theorem gpsTimeoutReset_gpsYawFaulty (x : In) (s : St) : (gpsTimeoutReset x s).gpsYawFaulty = s.gpsYawFaulty := (gpsTimeoutReset_frame x s).2.2.2.2.2.2.2.2.2.2.2.2.2.2.2.2.2.2.2.2.2.1
@[simp] theorem gpsTimeoutReset_doGsf (x : In) (s : St) : (gpsTimeoutReset x s).doGsf = s.doGsf := (gpsTimeoutReset_frame x s).2.2.2.2.2.2.2.2.2.2.2.2.2.2.2.2.2.2.2.2.2.2.1
@[simp] theorem gpsTimeoutReset_gsfTime (x : In) (s : St) : (gpsTimeoutReset x s).gsfTime = s.gsfTime := (gpsTimeoutReset_frame x s).2.2.2.2.2.2.2.2.2.2.2.2.2.2.2.2.2.2.2.2.2.2.2.1
@[simp] theorem gpsTimeoutReset_gsfCount (x : In) (s : St) : (gpsTimeoutReset x s).gsfCount = s.gsfCount := (gpsTimeoutReset_frame x s).2.2.2.2.2.2.2.2.2.2.2.2.2.2.2.2.2.2.2.2.2.2.2.2.1
@[simp] theorem gpsTimeoutReset_tDelpos (x : In) (s : St) : (gpsTimeoutReset x s).tDelpos = s.tDelpos := (gpsTimeoutReset_frame x s).2.2.2.2.2.2.2.2.2.2.2.2.2.2.2.2.2.2.2.2.2.2.2.2.2.1
@[simp] theorem gpsTimeoutReset_tOf (x : In) (s : St) : (gpsTimeoutReset x s).tOf = s.tOf := (gpsTimeoutReset_frame x s).2.2.2.2.2.2.2.2.2.2.2.2.2.2.2.2.2.2.2.2.2.2.2.2.2.2.1
@[simp] theorem gpsTimeoutReset_tBeta (x : In) (s : St) : (gpsTimeoutReset x s).tBeta = s.tBeta := (gpsTimeoutReset_frame x s).2.2.2.2.2.2.2.2.2.2.2.2.2.2.2.2.2.2.2.2.2.2.2.2.2.2.2.1
@[simp] theorem gpsTimeoutReset_tArsp (x : In) (s : St) : (gpsTimeoutReset x s).tArsp = s.tArsp := (gpsTimeoutReset_frame x s).2.2.2.2.2.2.2.2.2.2.2.2.2.2.2.2.2.2.2.2.2.2.2.2.2.2.2.2.1
@[simp] theorem gpsTimeoutReset_tFake (x : In) (s : St) : (gpsTimeoutReset x s).tFake = s.tFake := (gpsTimeoutReset_frame x s).2.2.2.2.2.2.2.2.2.2.2.2.2.2.2.2.2.2.2.2.2.2.2.2.2.2.2.2.2.1
@[simp] theorem gpsTimeoutReset_tGpsYaw (x : In) (s : St) : (gpsTimeoutReset x s).tGpsYaw = s.tGpsYaw := (gpsTimeoutReset_frame x s).2.2.2.2.2.2.2.2.2.2.2.2.2.2.2.2.2.2.2.2.2.2.2.2.2.2.2.2.2.2.1
@[simp] theorem gpsTimeoutReset_hposOdom (x : In) (s : St) : (gpsTimeoutReset x s).hposOdom = s.hposOdom := (gpsTimeoutReset_frame x s).2.2.2.2.2.2.2.2.2.2.2.2.2.2.2.2.2.2.2.2.2.2.2.2.2.2.2.2.2.2.2.1
@[simp] theorem gpsTimeoutReset_synth (x : In) (s : St) : (gpsTimeoutReset x s).synth = s.synth := (gpsTimeoutReset_frame x s).2.2.2.2.2.2.2.2.2.2.2.2.2.2.2.2.2.2.2.2.2.2.2.2.2.2.2.2.2.2.2.2.1
@[simp] theorem gpsTimeoutReset_flowReady (x : In) (s : St) : (gpsTimeoutReset x s).flowReady = s.flowReady := (gpsTimeoutReset_frame x s).2.2.2.2.2.2.2.2.2.2.2.2.2.2.2.2.2.2.2.2.2.2.2.2.2.2.2.2.2.2.2.2.2.1
@[simp] theorem gpsTimeoutReset_flowInh (x : In) (s : St) : (gpsTimeoutReset x s).flowInh = s.flowInh := (gpsTimeoutReset_frame x s).2.2.2.2.2.2.2.2.2.2.2.2.2.2.2.2.2.2.2.2.2.2.2.2.2.2.2.2.2.2.2.2.2.2.1
@[simp] theorem gpsTimeoutReset_tGood (x : In) (s : St) : (gpsTimeoutReset x s).tGood = s.tGood := (gpsTimeoutReset_frame x s).2.2.2.2.2.2.2.2.2.2.2.2.2.2.2.2.2.2.2.2.2.2.2.2.2.2.2.2.2.2.2.2.2.2.2.1
@[simp] theorem gpsTimeoutReset_tBad (x : In) (s : St) : (gpsTimeoutReset x s).tBad = s.tBad := (gpsTimeoutReset_frame x s).2.2.2.2.2.2.2.2.2.2.2.2.2.2.2.2.2.2.2.2.2.2.2.2.2.2.2.2.2.2.2.2.2.2.2.2

theorem gpsResets_frame (x : In) (s : St) :
    (gpsResets x s).tilt = s.tilt ∧ (gpsResets x s).gps = s.gps ∧ (gpsResets x s).optFlow = s.optFlow ∧ (gpsResets x s).magDec = s.magDec ∧ (gpsResets x s).wind = s.wind ∧ (gpsResets x s).evPos = s.evPos ∧ (gpsResets x s).evVel = s.evVel ∧ (gpsResets x s).evYaw = s.evYaw ∧ (gpsResets x s).gpsYaw = s.gpsYaw ∧ (gpsResets x s).magDist = s.magDist ∧ (gpsResets x s).fuseAspd = s.fuseAspd ∧ (gpsResets x s).magYawReq = s.magYawReq ∧ (gpsResets x s).magInhReq = s.magInhReq ∧ (gpsResets x s).inhibited = s.inhibited ∧ (gpsResets x s).nonMagPrev = s.nonMagPrev ∧ (gpsResets x s).yawObs = s.yawObs ∧ (gpsResets x s).biasObs = s.biasObs ∧ (gpsResets x s).tMov = s.tMov ∧ (gpsResets x s).tNotInh = s.tNotInh ∧ (gpsResets x s).tYaw = s.tYaw ∧ (gpsResets x s).gpsYawFaulty = s.gpsYawFaulty ∧ (gpsResets x s).tBeta = s.tBeta ∧ (gpsResets x s).tArsp = s.tArsp ∧ (gpsResets x s).tFake = s.tFake ∧ (gpsResets x s).tGpsYaw = s.tGpsYaw ∧ (gpsResets x s).hposOdom = s.hposOdom ∧ (gpsResets x s).synth = s.synth ∧ (gpsResets x s).flowReady = s.flowReady ∧ (gpsResets x s).flowInh = s.flowInh ∧ (gpsResets x s).tGood = s.tGood ∧ (gpsResets x s).tBad = s.tBad := by
  unfold gpsResets; (try dsimp only); split_ifs <;> simp [*]
@[simp] theorem gpsResets_tilt (x : In) (s : St) : (gpsResets x s).tilt = s.tilt := (gpsResets_frame x s).1
@[simp] theorem gpsResets_gps (x : In) (s : St) : (gpsResets x s).gps = s.gps := (gpsResets_frame x s).2.1
@[simp] theorem gpsResets_optFlow (x : In) (s : St) : (gpsResets x s).optFlow = s.optFlow := (gpsResets_frame x s).2.2.1
@[simp] theorem gpsResets_magDec (x : In) (s : St) : (gpsResets x s).magDec = s.magDec := (gpsResets_frame x s).2.2.2.1
@[simp] theorem gpsResets_wind (x : In) (s : St) : (gpsResets x s).wind = s.wind := (gpsResets_frame x s).2.2.2.2.1
@[simp] theorem gpsResets_evPos (x : In) (s : St) : (gpsResets x s).evPos = s.evPos := (gpsResets_frame x s).2.2.2.2.2.1
@[simp] theorem gpsResets_evVel (x : In) (s : St) : (gpsResets x s).evVel = s.evVel := (gpsResets_frame x s).2.2.2.2.2.2.1
@[simp] theorem gpsResets_evYaw (x : In) (s : St) : (gpsResets x s).evYaw = s.evYaw := (gpsResets_frame x s).2.2.2.2.2.2.2.1
@[simp] theorem gpsResets_gpsYaw (x : In) (s : St) : (gpsResets x s).gpsYaw = s.gpsYaw := (gpsResets_frame x s).2.2.2.2.2.2.2.2.1
@[simp] theorem gpsResets_magDist (x : In) (s : St) : (gpsResets x s).magDist = s.magDist := (gpsResets_frame x s).2.2.2.2.2.2.2.2.2.1
@[simp] theorem gpsResets_fuseAspd (x : In) (s : St) : (gpsResets x s).fuseAspd = s.fuseAspd := (gpsResets_frame x s).2.2.2.2.2.2.2.2.2.2.1
@[simp] theorem gpsResets_magYawReq (x : In) (s : St) : (gpsResets x s).magYawReq = s.magYawReq := (gpsResets_frame x s).2.2.2.2.2.2.2.2.2.2.2.1
@[simp] theorem gpsResets_magInhReq (x : In) (s : St) : (gpsResets x s).magInhReq = s.magInhReq := (gpsResets_frame x s).2.2.2.2.2.2.2.2.2.2.2.2.1
@[simp] theorem gpsResets_inhibited (x : In) (s : St) : (gpsResets x s).inhibited = s.inhibited := (gpsResets_frame x s).2.2.2.2.2.2.2.2.2.2.2.2.2.1
@[simp] theorem gpsResets_nonMagPrev (x : In) (s : St) : (gpsResets x s).nonMagPrev = s.nonMagPrev := (gpsResets_frame x s).2.2.2.2.2.2.2.2.2.2.2.2.2.2.1
@[simp] theorem gpsResets_yawObs (x : In) (s : St) : (gpsResets x s).yawObs = s.yawObs := (gpsResets_frame x s).2.2.2.2.2.2.2.2.2.2.2.2.2.2.2.1
@[simp] theorem gpsResets_biasObs (x : In) (s : St) : (gpsResets x s).biasObs = s.biasObs := (gpsResets_frame x s).2.2.2.2.2.2.2.2.2.2.2.2.2.2.2.2.1
@[simp] theorem gpsResets_tMov (x : In) (s : St) : (gpsResets x s).tMov = s.tMov := (gpsResets_frame x s).2.2.2.2.2.2.2.2.2.2.2.2.2.2.2.2.2.1
@[simp] theorem gpsResets_tNotInh (x : In) (s : St) : (gpsResets x s).tNotInh = s.tNotInh := (gpsResets_frame x s).2.2.2.2.2.2.2.2.2.2.2.2.2.2.2.2.2.2.1
@[simp] theorem gpsResets_tYaw (x : In) (s : St) : (gpsResets x s).tYaw = s.tYaw := (gpsResets_frame x s).2.2.2.2.2.2.2.2.2.2.2.2.2.2.2.2.2.2.2.1
@[simp] theorem gpsResets_gpsYawFaulty (x : In) (s : St) : (gpsResets x s).gpsYawFaulty = s.gpsYawFaulty := (gpsResets_frame x s).2.2.2.2.2.2.2.2.2.2.2.2.2.2.2.2.2.2.2.2.1
@[simp] theorem gpsResets_tBeta (x : In) (s : St) : (gpsResets x s).tBeta = s.tBeta := (gpsResets_frame x s).2.2.2.2.2.2.2.2.2.2.2.2.2.2.2.2.2.2.2.2.2.1
@[simp] theorem gpsResets_tArsp (x : In) (s : St) : (gpsResets x s).tArsp = s.tArsp := (gpsResets_frame x s).2.2.2.2.2.2.2.2.2.2.2.2.2.2.2.2.2.2.2.2.2.2.1
@[simp] theorem gpsResets_tFake (x : In) (s : St) : (gpsResets x s).tFake = s.tFake := (gpsResets_frame x s).2.2.2.2.2.2.2.2.2.2.2.2.2.2.2.2.2.2.2.2.2.2.2.1
@[simp] theorem gpsResets_tGpsYaw (x : In) (s : St) : (gpsResets x s).tGpsYaw = s.tGpsYaw := (gpsResets_frame x s).2.2.2.2.2.2.2.2.2.2.2.2.2.2.2.2.2.2.2.2.2.2.2.2.1
@[simp] theorem gpsResets_hposOdom (x : In) (s : St) : (gpsResets x s).hposOdom = s.hposOdom := (gpsResets_frame x s).2.2.2.2.2.2.2.2.2.2.2.2.2.2.2.2.2.2.2.2.2.2.2.2.2.1
@[simp] theorem gpsResets_synth (x : In) (s : St) : (gpsResets x s).synth = s.synth := (gpsResets_frame x s).2.2.2.2.2.2.2.2.2.2.2.2.2.2.2.2.2.2.2.2.2.2.2.2.2.2.1
@[simp] theorem gpsResets_flowReady (x : In) (s : St) : (gpsResets x s).flowReady = s.flowReady := (gpsResets_frame x s).2.2.2.2.2.2.2.2.2.2.2.2.2.2.2.2.2.2.2.2.2.2.2.2.2.2.2.1
@[simp] theorem gpsResets_flowInh (x : In) (s : St) : (gpsResets x s).flowInh = s.flowInh := (gpsResets_frame x s).2.2.2.2.2.2.2.2.2.2.2.2.2.2.2.2.2.2.2.2.2.2.2.2.2.2.2.2.1
@[simp] theorem gpsResets_tGood (x : In) (s : St) : (gpsResets x s).tGood = s.tGood := (gpsResets_frame x s).2.2.2.2.2.2.2.2.2.2.2.2.2.2.2.2.2.2.2.2.2.2.2.2.2.2.2.2.2.1
@[simp] theorem gpsResets_tBad (x : In) (s : St) : (gpsResets x s).tBad = s.tBad := (gpsResets_frame x s).2.2.2.2.2.2.2.2.2.2.2.2.2.2.2.2.2.2.2.2.2.2.2.2.2.2.2.2.2.2

theorem gpsFuse_frame (x : In) (s : St) :
    (gpsFuse x s).tilt = s.tilt ∧ (gpsFuse x s).yawAlign = s.yawAlign ∧ (gpsFuse x s).gps = s.gps ∧ (gpsFuse x s).optFlow = s.optFlow ∧ (gpsFuse x s).magHdg = s.magHdg ∧ (gpsFuse x s).mag3D = s.mag3D ∧ (gpsFuse x s).magDec = s.magDec ∧ (gpsFuse x s).wind = s.wind ∧ (gpsFuse x s).evPos = s.evPos ∧ (gpsFuse x s).evVel = s.evVel ∧ (gpsFuse x s).evYaw = s.evYaw ∧ (gpsFuse x s).gpsYaw = s.gpsYaw ∧ (gpsFuse x s).magDist = s.magDist ∧ (gpsFuse x s).magFault = s.magFault ∧ (gpsFuse x s).fuseAspd = s.fuseAspd ∧ (gpsFuse x s).magAligned = s.magAligned ∧ (gpsFuse x s).magYawReq = s.magYawReq ∧ (gpsFuse x s).magInhReq = s.magInhReq ∧ (gpsFuse x s).velposReq = s.velposReq ∧ (gpsFuse x s).inhibited = s.inhibited ∧ (gpsFuse x s).nonMagPrev = s.nonMagPrev ∧ (gpsFuse x s).yawObs = s.yawObs ∧ (gpsFuse x s).biasObs = s.biasObs ∧ (gpsFuse x s).nBad = s.nBad ∧ (gpsFuse x s).declCovReset = s.declCovReset ∧ (gpsFuse x s).tAlign = s.tAlign ∧ (gpsFuse x s).tMov = s.tMov ∧ (gpsFuse x s).tNotInh = s.tNotInh ∧ (gpsFuse x s).tYaw = s.tYaw ∧ (gpsFuse x s).gpsYawFaulty = s.gpsYawFaulty ∧ (gpsFuse x s).doGsf = s.doGsf ∧ (gpsFuse x s).gsfTime = s.gsfTime ∧ (gpsFuse x s).gsfCount = s.gsfCount ∧ (gpsFuse x s).tOf = s.tOf ∧ (gpsFuse x s).tBeta = s.tBeta ∧ (gpsFuse x s).tArsp = s.tArsp ∧ (gpsFuse x s).tFake = s.tFake ∧ (gpsFuse x s).tGpsYaw = s.tGpsYaw ∧ (gpsFuse x s).hposPrev = s.hposPrev ∧ (gpsFuse x s).hposOdom = s.hposOdom ∧ (gpsFuse x s).synth = s.synth ∧ (gpsFuse x s).flowReady = s.flowReady ∧ (gpsFuse x s).flowInh = s.flowInh ∧ (gpsFuse x s).tGood = s.tGood ∧ (gpsFuse x s).tBad = s.tBad := by
  unfold gpsFuse; (try dsimp only); split_ifs <;> simp [*]
@[simp] theorem gpsFuse_tilt (x : In) (s : St) : (gpsFuse x s).tilt = s.tilt := (gpsFuse_frame x s).1
@[simp] theorem gpsFuse_yawAlign (x : In) (s : St) : (gpsFuse x s).yawAlign = s.yawAlign := (gpsFuse_frame x s).2.1
@[simp] theorem gpsFuse_gps (x : In) (s : St) : (gpsFuse x s).gps = s.gps := (gpsFuse_frame x s).2.2.1
@[simp] theorem gpsFuse_optFlow (x : In) (s : St) : (gpsFuse x s).optFlow = s.optFlow := (gpsFuse_frame x s).2.2.2.1
@[simp] theorem gpsFuse_magHdg (x : In) (s : St) : (gpsFuse x s).magHdg = s.magHdg := (gpsFuse_frame x s).2.2.2.2.1
@[simp] theorem gpsFuse_mag3D (x : In) (s : St) : (gpsFuse x s).mag3D = s.mag3D := (gpsFuse_frame x s).2.2.2.2.2.1
@[simp] theorem gpsFuse_magDec (x : In) (s : St) : (gpsFuse x s).magDec = s.magDec := (gpsFuse_frame x s).2.2.2.2.2.2.1
@[simp] theorem gpsFuse_wind (x : In) (s : St) : (gpsFuse x s).wind = s.wind := (gpsFuse_frame x s).2.2.2.2.2.2.2.1
@[simp] theorem gpsFuse_evPos (x : In) (s : St) : (gpsFuse x s).evPos = s.evPos := (gpsFuse_frame x s).2.2.2.2.2.2.2.2.1
@[simp] theorem gpsFuse_evVel (x : In) (s : St) : (gpsFuse x s).evVel = s.evVel := (gpsFuse_frame x s).2.2.2.2.2.2.2.2.2.1
@[simp] theorem gpsFuse_evYaw (x : In) (s : St) : (gpsFuse x s).evYaw = s.evYaw := (gpsFuse_frame x s).2.2.2.2.2.2.2.2.2.2.1
@[simp] theorem gpsFuse_gpsYaw (x : In) (s : St) : (gpsFuse x s).gpsYaw = s.gpsYaw := (gpsFuse_frame x s).2.2.2.2.2.2.2.2.2.2.2.1
@[simp] theorem gpsFuse_magDist (x : In) (s : St) : (gpsFuse x s).magDist = s.magDist := (gpsFuse_frame x s).2.2.2.2.2.2.2.2.2.2.2.2.1
@[simp] theorem gpsFuse_magFault (x : In) (s : St) : (gpsFuse x s).magFault = s.magFault := (gpsFuse_frame x s).2.2.2.2.2.2.2.2.2.2.2.2.2.1
@[simp] theorem gpsFuse_fuseAspd (x : In) (s : St) : (gpsFuse x s).fuseAspd = s.fuseAspd := (gpsFuse_frame x s).2.2.2.2.2.2.2.2.2.2.2.2.2.2.1
@[simp] theorem gpsFuse_magAligned (x : In) (s : St) : (gpsFuse x s).magAligned = s.magAligned := (gpsFuse_frame x s).2.2.2.2.2.2.2.2.2.2.2.2.2.2.2.1
@[simp] theorem gpsFuse_magYawReq (x : In) (s : St) : (gpsFuse x s).magYawReq = s.magYawReq := (gpsFuse_frame x s).2.2.2.2.2.2.2.2.2.2.2.2.2.2.2.2.1
@[simp] theorem gpsFuse_magInhReq (x : In) (s : St) : (gpsFuse x s).magInhReq = s.magInhReq := (gpsFuse_frame x s).2.2.2.2.2.2.2.2.2.2.2.2.2.2.2.2.2.1
@[simp] theorem gpsFuse_velposReq (x : In) (s : St) : (gpsFuse x s).velposReq = s.velposReq := (gpsFuse_frame x s).2.2.2.2.2.2.2.2.2.2.2.2.2.2.2.2.2.2.1
@[simp] theorem gpsFuse_inhibited (x : In) (s : St) : (gpsFuse x s).inhibited = s.inhibited := (gpsFuse_frame x s).2.2.2.2.2.2.2.2.2.2.2.2.2.2.2.2.2.2.2.1
@[simp] theorem gpsFuse_nonMagPrev (x : In) (s : St) : (gpsFuse x s).nonMagPrev = s.nonMagPrev := (gpsFuse_frame x s).2.2.2.2.2.2.2.2.2.2.2.2.2.2.2.2.2.2.2.2.1
@[simp] theorem gpsFuse_yawObs (x : In) (s : St) : (gpsFuse x s).yawObs = s.yawObs := (gpsFuse_frame x s).2.2.2.2.2.2.2.2.2.2.2.2.2.2.2.2.2.2.2.2.2.1
@[simp] theorem gpsFuse_biasObs (x : In) (s : St) : (gpsFuse x s).biasObs = s.biasObs := (gpsFuse_frame x s).2.2.2.2.2.2.2.2.2.2.2.2.2.2.2.2.2.2.2.2.2.2.1
@[simp] theorem gpsFuse_nBad (x : In) (s : St) : (gpsFuse x s).nBad = s.nBad := (gpsFuse_frame x s).2.2.2.2.2.2.2.2.2.2.2.2.2.2.2.2.2.2.2.2.2.2.2.1
@[simp] theorem gpsFuse_declCovReset (x : In) (s : St) : (gpsFuse x s).declCovReset = s.declCovReset := (gpsFuse_frame x s).2.2.2.2.2.2.2.2.2.2.2.2.2.2.2.2.2.2.2.2.2.2.2.2.1
@[simp] theorem gpsFuse_tAlign (x : In) (s : St) : (gpsFuse x s).tAlign = s.tAlign := (gpsFuse_frame x s).2.2.2.2.2.2.2.2.2.2.2.2.2.2.2.2.2.2.2.2.2.2.2.2.2.1
@[simp] theorem gpsFuse_tMov (x : In) (s : St) : (gpsFuse x s).tMov = s.tMov := (gpsFuse_frame x s).2.2.2.2.2.2.2.2.2.2.2.2.2.2.2.2.2.2.2.2.2.2.2.2.2.2.1
@[simp] theorem gpsFuse_tNotInh (x : In) (s : St) : (gpsFuse x s).tNotInh = s.tNotInh := (gpsFuse_frame x s).2.2.2.2.2.2.2.2.2.2.2.2.2.2.2.2.2.2.2.2.2.2.2.2.2.2.2.1
@[simp] theorem gpsFuse_tYaw (x : In) (s : St) : (gpsFuse x s).tYaw = s.tYaw := (gpsFuse_frame x s).2.2.2.2.2.2.2.2.2.2.2.2.2.2.2.2.2.2.2.2.2.2.2.2.2.2.2.2.1
@[simp] theorem gpsFuse_gpsYawFaulty (x : In) (s : St) : (gpsFuse x s).gpsYawFaulty = s.gpsYawFaulty := (gpsFuse_frame x s).2.2.2.2.2.2.2.2.2.2.2.2.2.2.2.2.2.2.2.2.2.2.2.2.2.2.2.2.2.1
@[simp] theorem gpsFuse_doGsf (x : In) (s : St) : (gpsFuse x s).doGsf = s.doGsf := (gpsFuse_frame x s).2.2.2.2.2.2.2.2.2.2.2.2.2.2.2.2.2.2.2.2.2.2.2.2.2.2.2.2.2.2.1
@[simp] theorem gpsFuse_gsfTime (x : In) (s : St) : (gpsFuse x s).gsfTime = s.gsfTime := (gpsFuse_frame x s).2.2.2.2.2.2.2.2.2.2.2.2.2.2.2.2.2.2.2.2.2.2.2.2.2.2.2.2.2.2.2.1
@[simp] theorem gpsFuse_gsfCount (x : In) (s : St) : (gpsFuse x s).gsfCount = s.gsfCount := (gpsFuse_frame x s).2.2.2.2.2.2.2.2.2.2.2.2.2.2.2.2.2.2.2.2.2.2.2.2.2.2.2.2.2.2.2.2.1
@[simp] theorem gpsFuse_tOf (x : In) (s : St) : (gpsFuse x s).tOf = s.tOf := (gpsFuse_frame x s).2.2.2.2.2.2.2.2.2.2.2.2.2.2.2.2.2.2.2.2.2.2.2.2.2.2.2.2.2.2.2.2.2.1
@[simp] theorem gpsFuse_tBeta (x : In) (s : St) : (gpsFuse x s).tBeta = s.tBeta := (gpsFuse_frame x s).2.2.2.2.2.2.2.2.2.2.2.2.2.2.2.2.2.2.2.2.2.2.2.2.2.2.2.2.2.2.2.2.2.2.1
@[simp] theorem gpsFuse_tArsp (x : In) (s : St) : (gpsFuse x s).tArsp = s.tArsp := (gpsFuse_frame x s).2.2.2.2.2.2.2.2.2.2.2.2.2.2.2.2.2.2.2.2.2.2.2.2.2.2.2.2.2.2.2.2.2.2.2.1
@[simp] theorem gpsFuse_tFake (x : In) (s : St) : (gpsFuse x s).tFake = s.tFake := (gpsFuse_frame x s).2.2.2.2.2.2.2.2.2.2.2.2.2.2.2.2.2.2.2.2.2.2.2.2.2.2.2.2.2.2.2.2.2.2.2.2.1
@[simp] theorem gpsFuse_tGpsYaw (x : In) (s : St) : (gpsFuse x s).tGpsYaw = s.tGpsYaw := (gpsFuse_frame x s).2.2.2.2.2.2.2.2.2.2.2.2.2.2.2.2.2.2.2.2.2.2.2.2.2.2.2.2.2.2.2.2.2.2.2.2.2.1
@[simp] theorem gpsFuse_hposPrev (x : In) (s : St) : (gpsFuse x s).hposPrev = s.hposPrev := (gpsFuse_frame x s).2.2.2.2.2.2.2.2.2.2.2.2.2.2.2.2.2.2.2.2.2.2.2.2.2.2.2.2.2.2.2.2.2.2.2.2.2.2.1
@[simp] theorem gpsFuse_hposOdom (x : In) (s : St) : (gpsFuse x s).hposOdom = s.hposOdom := (gpsFuse_frame x s).2.2.2.2.2.2.2.2.2.2.2.2.2.2.2.2.2.2.2.2.2.2.2.2.2.2.2.2.2.2.2.2.2.2.2.2.2.2.2.1
@[simp] theorem gpsFuse_synth (x : In) (s : St) : (gpsFuse x s).synth = s.synth := (gpsFuse_frame x s).2.2.2.2.2.2.2.2.2.2.2.2.2.2.2.2.2.2.2.2.2.2.2.2.2.2.2.2.2.2.2.2.2.2.2.2.2.2.2.2.1
@[simp] theorem gpsFuse_flowReady (x : In) (s : St) : (gpsFuse x s).flowReady = s.flowReady := (gpsFuse_frame x s).2.2.2.2.2.2.2.2.2.2.2.2.2.2.2.2.2.2.2.2.2.2.2.2.2.2.2.2.2.2.2.2.2.2.2.2.2.2.2.2.2.1
@[simp] theorem gpsFuse_flowInh (x : In) (s : St) : (gpsFuse x s).flowInh = s.flowInh := (gpsFuse_frame x s).2.2.2.2.2.2.2.2.2.2.2.2.2.2.2.2.2.2.2.2.2.2.2.2.2.2.2.2.2.2.2.2.2.2.2.2.2.2.2.2.2.2.1
@[simp] theorem gpsFuse_tGood (x : In) (s : St) : (gpsFuse x s).tGood = s.tGood := (gpsFuse_frame x s).2.2.2.2.2.2.2.2.2.2.2.2.2.2.2.2.2.2.2.2.2.2.2.2.2.2.2.2.2.2.2.2.2.2.2.2.2.2.2.2.2.2.2.1
@[simp] theorem gpsFuse_tBad (x : In) (s : St) : (gpsFuse x s).tBad = s.tBad := (gpsFuse_frame x s).2.2.2.2.2.2.2.2.2.2.2.2.2.2.2.2.2.2.2.2.2.2.2.2.2.2.2.2.2.2.2.2.2.2.2.2.2.2.2.2.2.2.2.2

theorem controlGps_frame (x : In) (s : St) :
    (controlGps x s).tilt = s.tilt ∧ (controlGps x s).optFlow = s.optFlow ∧ (controlGps x s).wind = s.wind ∧ (controlGps x s).evPos = s.evPos ∧ (controlGps x s).evVel = s.evVel ∧ (controlGps x s).magDist = s.magDist ∧ (controlGps x s).fuseAspd = s.fuseAspd ∧ (controlGps x s).magYawReq = s.magYawReq ∧ (controlGps x s).inhibited = s.inhibited ∧ (controlGps x s).nonMagPrev = s.nonMagPrev ∧ (controlGps x s).yawObs = s.yawObs ∧ (controlGps x s).biasObs = s.biasObs ∧ (controlGps x s).tMov = s.tMov ∧ (controlGps x s).tNotInh = s.tNotInh ∧ (controlGps x s).tYaw = s.tYaw ∧ (controlGps x s).tBeta = s.tBeta ∧ (controlGps x s).tArsp = s.tArsp ∧ (controlGps x s).tFake = s.tFake ∧ (controlGps x s).hposOdom = s.hposOdom ∧ (controlGps x s).synth = s.synth ∧ (controlGps x s).flowReady = s.flowReady ∧ (controlGps x s).flowInh = s.flowInh ∧ (controlGps x s).tGood = s.tGood ∧ (controlGps x s).tBad = s.tBad := by
  unfold controlGps; (try dsimp only); split_ifs <;> simp [*]
@[simp] theorem controlGps_tilt (x : In) (s : St) : (controlGps x s).tilt = s.tilt := (controlGps_frame x s).1
@[simp] theorem controlGps_optFlow (x : In) (s : St) : (controlGps x s).optFlow = s.optFlow := (controlGps_frame x s).2.1
@[simp] theorem controlGps_wind (x : In) (s : St) : (controlGps x s).wind = s.wind := (controlGps_frame x s).2.2.1
@[simp] theorem controlGps_evPos (x : In) (s : St) : (controlGps x s).evPos = s.evPos := (controlGps_frame x s).2.2.2.1
@[simp] theorem controlGps_evVel (x : In) (s : St) : (controlGps x s).evVel = s.evVel := (controlGps_frame x s).2.2.2.2.1
@[simp] theorem controlGps_magDist (x : In) (s : St) : (controlGps x s).magDist = s.magDist := (controlGps_frame x s).2.2.2.2.2.1
@[simp] theorem controlGps_fuseAspd (x : In) (s : St) : (controlGps x s).fuseAspd = s.fuseAspd := (controlGps_frame x s).2.2.2.2.2.2.1
@[simp] theorem controlGps_magYawReq (x : In) (s : St) : (controlGps x s).magYawReq = s.magYawReq := (controlGps_frame x s).2.2.2.2.2.2.2.1
@[simp] theorem controlGps_inhibited (x : In) (s : St) : (controlGps x s).inhibited = s.inhibited := (controlGps_frame x s).2.2.2.2.2.2.2.2.1
@[simp] theorem controlGps_nonMagPrev (x : In) (s : St) : (controlGps x s).nonMagPrev = s.nonMagPrev := (controlGps_frame x s).2.2.2.2.2.2.2.2.2.1
@[simp] theorem controlGps_yawObs (x : In) (s : St) : (controlGps x s).yawObs = s.yawObs := (controlGps_frame x s).2.2.2.2.2.2.2.2.2.2.1
@[simp] theorem controlGps_biasObs (x : In) (s : St) : (controlGps x s).biasObs = s.biasObs := (controlGps_frame x s).2.2.2.2.2.2.2.2.2.2.2.1
@[simp] theorem controlGps_tMov (x : In) (s : St) : (controlGps x s).tMov = s.tMov := (controlGps_frame x s).2.2.2.2.2.2.2.2.2.2.2.2.1
@[simp] theorem controlGps_tNotInh (x : In) (s : St) : (controlGps x s).tNotInh = s.tNotInh := (controlGps_frame x s).2.2.2.2.2.2.2.2.2.2.2.2.2.1
@[simp] theorem controlGps_tYaw (x : In) (s : St) : (controlGps x s).tYaw = s.tYaw := (controlGps_frame x s).2.2.2.2.2.2.2.2.2.2.2.2.2.2.1
@[simp] theorem controlGps_tBeta (x : In) (s : St) : (controlGps x s).tBeta = s.tBeta := (controlGps_frame x s).2.2.2.2.2.2.2.2.2.2.2.2.2.2.2.1
@[simp] theorem controlGps_tArsp (x : In) (s : St) : (controlGps x s).tArsp = s.tArsp := (controlGps_frame x s).2.2.2.2.2.2.2.2.2.2.2.2.2.2.2.2.1
@[simp] theorem controlGps_tFake (x : In) (s : St) : (controlGps x s).tFake = s.tFake := (controlGps_frame x s).2.2.2.2.2.2.2.2.2.2.2.2.2.2.2.2.2.1
@[simp] theorem controlGps_hposOdom (x : In) (s : St) : (controlGps x s).hposOdom = s.hposOdom := (controlGps_frame x s).2.2.2.2.2.2.2.2.2.2.2.2.2.2.2.2.2.2.1
@[simp] theorem controlGps_synth (x : In) (s : St) : (controlGps x s).synth = s.synth := (controlGps_frame x s).2.2.2.2.2.2.2.2.2.2.2.2.2.2.2.2.2.2.2.1
@[simp] theorem controlGps_flowReady (x : In) (s : St) : (controlGps x s).flowReady = s.flowReady := (controlGps_frame x s).2.2.2.2.2.2.2.2.2.2.2.2.2.2.2.2.2.2.2.2.1
@[simp] theorem controlGps_flowInh (x : In) (s : St) : (controlGps x s).flowInh = s.flowInh := (controlGps_frame x s).2.2.2.2.2.2.2.2.2.2.2.2.2.2.2.2.2.2.2.2.2.1
@[simp] theorem controlGps_tGood (x : In) (s : St) : (controlGps x s).tGood = s.tGood := (controlGps_frame x s).2.2.2.2.2.2.2.2.2.2.2.2.2.2.2.2.2.2.2.2.2.2.1
@[simp] theorem controlGps_tBad (x : In) (s : St) : (controlGps x s).tBad = s.tBad := (controlGps_frame x s).2.2.2.2.2.2.2.2.2.2.2.2.2.2.2.2.2.2.2.2.2.2.2

theorem flowMotion_frame (x : In) (s : St) :
    (flowMotion x s).tilt = s.tilt ∧ (flowMotion x s).yawAlign = s.yawAlign ∧ (flowMotion x s).gps = s.gps ∧ (flowMotion x s).optFlow = s.optFlow ∧ (flowMotion x s).magHdg = s.magHdg ∧ (flowMotion x s).mag3D = s.mag3D ∧ (flowMotion x s).magDec = s.magDec ∧ (flowMotion x s).wind = s.wind ∧ (flowMotion x s).evPos = s.evPos ∧ (flowMotion x s).evVel = s.evVel ∧ (flowMotion x s).evYaw = s.evYaw ∧ (flowMotion x s).gpsYaw = s.gpsYaw ∧ (flowMotion x s).magDist = s.magDist ∧ (flowMotion x s).magFault = s.magFault ∧ (flowMotion x s).fuseAspd = s.fuseAspd ∧ (flowMotion x s).magAligned = s.magAligned ∧ (flowMotion x s).magYawReq = s.magYawReq ∧ (flowMotion x s).magInhReq = s.magInhReq ∧ (flowMotion x s).velposReq = s.velposReq ∧ (flowMotion x s).inhibited = s.inhibited ∧ (flowMotion x s).nonMagPrev = s.nonMagPrev ∧ (flowMotion x s).yawObs = s.yawObs ∧ (flowMotion x s).biasObs = s.biasObs ∧ (flowMotion x s).nBad = s.nBad ∧ (flowMotion x s).declCovReset = s.declCovReset ∧ (flowMotion x s).tAlign = s.tAlign ∧ (flowMotion x s).tMov = s.tMov ∧ (flowMotion x s).tNotInh = s.tNotInh ∧ (flowMotion x s).tYaw = s.tYaw ∧ (flowMotion x s).gpsYawFaulty = s.gpsYawFaulty ∧ (flowMotion x s).doGsf = s.doGsf ∧ (flowMotion x s).gsfTime = s.gsfTime ∧ (flowMotion x s).gsfCount = s.gsfCount ∧ (flowMotion x s).tPos = s.tPos ∧ (flowMotion x s).tDelpos = s.tDelpos ∧ (flowMotion x s).tVel = s.tVel ∧ (flowMotion x s).tOf = s.tOf ∧ (flowMotion x s).tBeta = s.tBeta ∧ (flowMotion x s).tArsp = s.tArsp ∧ (flowMotion x s).tFake = s.tFake ∧ (flowMotion x s).tGpsYaw = s.tGpsYaw ∧ (flowMotion x s).hposPrev = s.hposPrev ∧ (flowMotion x s).hposOdom = s.hposOdom ∧ (flowMotion x s).synth = s.synth ∧ (flowMotion x s).flowReady = s.flowReady ∧ (flowMotion x s).flowInh = s.flowInh := by
  unfold flowMotion; (try dsimp only); split_ifs <;> simp [*]
@[simp] theorem flowMotion_tilt (x : In) (s : St) : (flowMotion x s).tilt = s.tilt := (flowMotion_frame x s).1
@[simp] theorem flowMotion_yawAlign (x : In) (s : St) : (flowMotion x s).yawAlign = s.yawAlign := (flowMotion_frame x s).2.1
@[simp] theorem flowMotion_gps (x : In) (s : St) : (flowMotion x s).gps = s.gps := (flowMotion_frame x s).2.2.1
@[simp] theorem flowMotion_optFlow (x : In) (s : St) : (flowMotion x s).optFlow = s.optFlow := (flowMotion_frame x s).2.2.2.1
@[simp] theorem flowMotion_magHdg (x : In) (s : St) : (flowMotion x s).magHdg = s.magHdg := (flowMotion_frame x s).2.2.2.2.1
@[simp] theorem flowMotion_mag3D (x : In) (s : St) : (flowMotion x s).mag3D = s.mag3D := (flowMotion_frame x s).2.2.2.2.2.1
@[simp] theorem flowMotion_magDec (x : In) (s : St) : (flowMotion x s).magDec = s.magDec := (flowMotion_frame x s).2.2.2.2.2.2.1
@[simp] theorem flowMotion_wind (x : In) (s : St) : (flowMotion x s).wind = s.wind := (flowMotion_frame x s).2.2.2.2.2.2.2.1
@[simp] theorem flowMotion_evPos (x : In) (s : St) : (flowMotion x s).evPos = s.evPos := (flowMotion_frame x s).2.2.2.2.2.2.2.2.1
@[simp] theorem flowMotion_evVel (x : In) (s : St) : (flowMotion x s).evVel = s.evVel := (flowMotion_frame x s).2.2.2.2.2.2.2.2.2.1
@[simp] theorem flowMotion_evYaw (x : In) (s : St) : (flowMotion x s).evYaw = s.evYaw := (flowMotion_frame x s).2.2.2.2.2.2.2.2.2.2.1
@[simp] theorem flowMotion_gpsYaw (x : In) (s : St) : (flowMotion x s).gpsYaw = s.gpsYaw := (flowMotion_frame x s).2.2.2.2.2.2.2.2.2.2.2.1
@[simp] theorem flowMotion_magDist (x : In) (s : St) : (flowMotion x s).magDist = s.magDist := (flowMotion_frame x s).2.2.2.2.2.2.2.2.2.2.2.2.1
@[simp] theorem flowMotion_magFault (x : In) (s : St) : (flowMotion x s).magFault = s.magFault := (flowMotion_frame x s).2.2.2.2.2.2.2.2.2.2.2.2.2.1
@[simp] theorem flowMotion_fuseAspd (x : In) (s : St) : (flowMotion x s).fuseAspd = s.fuseAspd := (flowMotion_frame x s).2.2.2.2.2.2.2.2.2.2.2.2.2.2.1
@[simp] theorem flowMotion_magAligned (x : In) (s : St) : (flowMotion x s).magAligned = s.magAligned := (flowMotion_frame x s).2.2.2.2.2.2.2.2.2.2.2.2.2.2.2.1
@[simp] theorem flowMotion_magYawReq (x : In) (s : St) : (flowMotion x s).magYawReq = s.magYawReq := (flowMotion_frame x s).2.2.2.2.2.2.2.2.2.2.2.2.2.2.2.2.1
@[simp] theorem flowMotion_magInhReq (x : In) (s : St) : (flowMotion x s).magInhReq = s.magInhReq := (flowMotion_frame x s).2.2.2.2.2.2.2.2.2.2.2.2.2.2.2.2.2.1
@[simp] theorem flowMotion_velposReq (x : In) (s : St) : (flowMotion x s).velposReq = s.velposReq := (flowMotion_frame x s).2.2.2.2.2.2.2.2.2.2.2.2.2.2.2.2.2.2.1
@[simp] theorem flowMotion_inhibited (x : In) (s : St) : (flowMotion x s).inhibited = s.inhibited := (flowMotion_frame x s).2.2.2.2.2.2.2.2.2.2.2.2.2.2.2.2.2.2.2.1
@[simp] theorem flowMotion_nonMagPrev (x : In) (s : St) : (flowMotion x s).nonMagPrev = s.nonMagPrev := (flowMotion_frame x s).2.2.2.2.2.2.2.2.2.2.2.2.2.2.2.2.2.2.2.2.1
@[simp] theorem flowMotion_yawObs (x : In) (s : St) : (flowMotion x s).yawObs = s.yawObs := (flowMotion_frame x s).2.2.2.2.2.2.2.2.2.2.2.2.2.2.2.2.2.2.2.2.2.1
@[simp] theorem flowMotion_biasObs (x : In) (s : St) : (flowMotion x s).biasObs = s.biasObs := (flowMotion_frame x s).2.2.2.2.2.2.2.2.2.2.2.2.2.2.2.2.2.2.2.2.2.2.1
@[simp] theorem flowMotion_nBad (x : In) (s : St) : (flowMotion x s).nBad = s.nBad := (flowMotion_frame x s).2.2.2.2.2.2.2.2.2.2.2.2.2.2.2.2.2.2.2.2.2.2.2.1
@[simp] theorem flowMotion_declCovReset (x : In) (s : St) : (flowMotion x s).declCovReset = s.declCovReset := (flowMotion_frame x s).2.2.2.2.2.2.2.2.2.2.2.2.2.2.2.2.2.2.2.2.2.2.2.2.1
@[simp] theorem flowMotion_tAlign (x : In) (s : St) : (flowMotion x s).tAlign = s.tAlign := (flowMotion_frame x s).2.2.2.2.2.2.2.2.2.2.2.2.2.2.2.2.2.2.2.2.2.2.2.2.2.1
@[simp] theorem flowMotion_tMov (x : In) (s : St) : (flowMotion x s).tMov = s.tMov := (flowMotion_frame x s).2.2.2.2.2.2.2.2.2.2.2.2.2.2.2.2.2.2.2.2.2.2.2.2.2.2.1
@[simp] theorem flowMotion_tNotInh (x : In) (s : St) : (flowMotion x s).tNotInh = s.tNotInh := (flowMotion_frame x s).2.2.2.2.2.2.2.2.2.2.2.2.2.2.2.2.2.2.2.2.2.2.2.2.2.2.2.1
@[simp] theorem flowMotion_tYaw (x : In) (s : St) : (flowMotion x s).tYaw = s.tYaw := (flowMotion_frame x s).2.2.2.2.2.2.2.2.2.2.2.2.2.2.2.2.2.2.2.2.2.2.2.2.2.2.2.2.1
@[simp] theorem flowMotion_gpsYawFaulty (x : In) (s : St) : (flowMotion x s).gpsYawFaulty = s.gpsYawFaulty := (flowMotion_frame x s).2.2.2.2.2.2.2.2.2.2.2.2.2.2.2.2.2.2.2.2.2.2.2.2.2.2.2.2.2.1
@[simp] theorem flowMotion_doGsf (x : In) (s : St) : (flowMotion x s).doGsf = s.doGsf := (flowMotion_frame x s).2.2.2.2.2.2.2.2.2.2.2.2.2.2.2.2.2.2.2.2.2.2.2.2.2.2.2.2.2.2.1
@[simp] theorem flowMotion_gsfTime (x : In) (s : St) : (flowMotion x s).gsfTime = s.gsfTime := (flowMotion_frame x s).2.2.2.2.2.2.2.2.2.2.2.2.2.2.2.2.2.2.2.2.2.2.2.2.2.2.2.2.2.2.2.1
@[simp] theorem flowMotion_gsfCount (x : In) (s : St) : (flowMotion x s).gsfCount = s.gsfCount := (flowMotion_frame x s).2.2.2.2.2.2.2.2.2.2.2.2.2.2.2.2.2.2.2.2.2.2.2.2.2.2.2.2.2.2.2.2.1
@[simp] theorem flowMotion_tPos (x : In) (s : St) : (flowMotion x s).tPos = s.tPos := (flowMotion_frame x s).2.2.2.2.2.2.2.2.2.2.2.2.2.2.2.2.2.2.2.2.2.2.2.2.2.2.2.2.2.2.2.2.2.1
@[simp] theorem flowMotion_tDelpos (x : In) (s : St) : (flowMotion x s).tDelpos = s.tDelpos := (flowMotion_frame x s).2.2.2.2.2.2.2.2.2.2.2.2.2.2.2.2.2.2.2.2.2.2.2.2.2.2.2.2.2.2.2.2.2.2.1
@[simp] theorem flowMotion_tVel (x : In) (s : St) : (flowMotion x s).tVel = s.tVel := (flowMotion_frame x s).2.2.2.2.2.2.2.2.2.2.2.2.2.2.2.2.2.2.2.2.2.2.2.2.2.2.2.2.2.2.2.2.2.2.2.1
@[simp] theorem flowMotion_tOf (x : In) (s : St) : (flowMotion x s).tOf = s.tOf := (flowMotion_frame x s).2.2.2.2.2.2.2.2.2.2.2.2.2.2.2.2.2.2.2.2.2.2.2.2.2.2.2.2.2.2.2.2.2.2.2.2.1
@[simp] theorem flowMotion_tBeta (x : In) (s : St) : (flowMotion x s).tBeta = s.tBeta := (flowMotion_frame x s).2.2.2.2.2.2.2.2.2.2.2.2.2.2.2.2.2.2.2.2.2.2.2.2.2.2.2.2.2.2.2.2.2.2.2.2.2.1
@[simp] theorem flowMotion_tArsp (x : In) (s : St) : (flowMotion x s).tArsp = s.tArsp := (flowMotion_frame x s).2.2.2.2.2.2.2.2.2.2.2.2.2.2.2.2.2.2.2.2.2.2.2.2.2.2.2.2.2.2.2.2.2.2.2.2.2.2.1
@[simp] theorem flowMotion_tFake (x : In) (s : St) : (flowMotion x s).tFake = s.tFake := (flowMotion_frame x s).2.2.2.2.2.2.2.2.2.2.2.2.2.2.2.2.2.2.2.2.2.2.2.2.2.2.2.2.2.2.2.2.2.2.2.2.2.2.2.1
@[simp] theorem flowMotion_tGpsYaw (x : In) (s : St) : (flowMotion x s).tGpsYaw = s.tGpsYaw := (flowMotion_frame x s).2.2.2.2.2.2.2.2.2.2.2.2.2.2.2.2.2.2.2.2.2.2.2.2.2.2.2.2.2.2.2.2.2.2.2.2.2.2.2.2.1
@[simp] theorem flowMotion_hposPrev (x : In) (s : St) : (flowMotion x s).hposPrev = s.hposPrev := (flowMotion_frame x s).2.2.2.2.2.2.2.2.2.2.2.2.2.2.2.2.2.2.2.2.2.2.2.2.2.2.2.2.2.2.2.2.2.2.2.2.2.2.2.2.2.1
@[simp] theorem flowMotion_hposOdom (x : In) (s : St) : (flowMotion x s).hposOdom = s.hposOdom := (flowMotion_frame x s).2.2.2.2.2.2.2.2.2.2.2.2.2.2.2.2.2.2.2.2.2.2.2.2.2.2.2.2.2.2.2.2.2.2.2.2.2.2.2.2.2.2.1
@[simp] theorem flowMotion_synth (x : In) (s : St) : (flowMotion x s).synth = s.synth := (flowMotion_frame x s).2.2.2.2.2.2.2.2.2.2.2.2.2.2.2.2.2.2.2.2.2.2.2.2.2.2.2.2.2.2.2.2.2.2.2.2.2.2.2.2.2.2.2.1
@[simp] theorem flowMotion_flowReady (x : In) (s : St) : (flowMotion x s).flowReady = s.flowReady := (flowMotion_frame x s).2.2.2.2.2.2.2.2.2.2.2.2.2.2.2.2.2.2.2.2.2.2.2.2.2.2.2.2.2.2.2.2.2.2.2.2.2.2.2.2.2.2.2.2.1
@[simp] theorem flowMotion_flowInh (x : In) (s : St) : (flowMotion x s).flowInh = s.flowInh := (flowMotion_frame x s).2.2.2.2.2.2.2.2.2.2.2.2.2.2.2.2.2.2.2.2.2.2.2.2.2.2.2.2.2.2.2.2.2.2.2.2.2.2.2.2.2.2.2.2.2

theorem flowQuality_frame (x : In) (s : St) :
    (flowQuality x s).tilt = s.tilt ∧ (flowQuality x s).yawAlign = s.yawAlign ∧ (flowQuality x s).gps = s.gps ∧ (flowQuality x s).optFlow = s.optFlow ∧ (flowQuality x s).magHdg = s.magHdg ∧ (flowQuality x s).mag3D = s.mag3D ∧ (flowQuality x s).magDec = s.magDec ∧ (flowQuality x s).wind = s.wind ∧ (flowQuality x s).evPos = s.evPos ∧ (flowQuality x s).evVel = s.evVel ∧ (flowQuality x s).evYaw = s.evYaw ∧ (flowQuality x s).gpsYaw = s.gpsYaw ∧ (flowQuality x s).magDist = s.magDist ∧ (flowQuality x s).magFault = s.magFault ∧ (flowQuality x s).fuseAspd = s.fuseAspd ∧ (flowQuality x s).magAligned = s.magAligned ∧ (flowQuality x s).magYawReq = s.magYawReq ∧ (flowQuality x s).magInhReq = s.magInhReq ∧ (flowQuality x s).velposReq = s.velposReq ∧ (flowQuality x s).inhibited = s.inhibited ∧ (flowQuality x s).nonMagPrev = s.nonMagPrev ∧ (flowQuality x s).yawObs = s.yawObs ∧ (flowQuality x s).biasObs = s.biasObs ∧ (flowQuality x s).nBad = s.nBad ∧ (flowQuality x s).declCovReset = s.declCovReset ∧ (flowQuality x s).tAlign = s.tAlign ∧ (flowQuality x s).tMov = s.tMov ∧ (flowQuality x s).tNotInh = s.tNotInh ∧ (flowQuality x s).tYaw = s.tYaw ∧ (flowQuality x s).gpsYawFaulty = s.gpsYawFaulty ∧ (flowQuality x s).doGsf = s.doGsf ∧ (flowQuality x s).gsfTime = s.gsfTime ∧ (flowQuality x s).gsfCount = s.gsfCount ∧ (flowQuality x s).tPos = s.tPos ∧ (flowQuality x s).tDelpos = s.tDelpos ∧ (flowQuality x s).tVel = s.tVel ∧ (flowQuality x s).tOf = s.tOf ∧ (flowQuality x s).tBeta = s.tBeta ∧ (flowQuality x s).tArsp = s.tArsp ∧ (flowQuality x s).tFake = s.tFake ∧ (flowQuality x s).tGpsYaw = s.tGpsYaw ∧ (flowQuality x s).hposPrev = s.hposPrev ∧ (flowQuality x s).hposOdom = s.hposOdom ∧ (flowQuality x s).synth = s.synth ∧ (flowQuality x s).flowInh = s.flowInh ∧ (flowQuality x s).tGood = s.tGood ∧ (flowQuality x s).tBad = s.tBad := by
  unfold flowQuality; (try dsimp only); split_ifs <;> simp [*]
@[simp] theorem flowQuality_tilt (x : In) (s : St) : (flowQuality x s).tilt = s.tilt := (flowQuality_frame x s).1
@[simp] theorem flowQuality_yawAlign (x : In) (s : St) : (flowQuality x s).yawAlign = s.yawAlign := (flowQuality_frame x s).2.1
@[simp] theorem flowQuality_gps (x : In) (s : St) : (flowQuality x s).gps = s.gps := (flowQuality_frame x s).2.2.1
@[simp] theorem flowQuality_optFlow (x : In) (s : St) : (flowQuality x s).optFlow = s.optFlow := (flowQuality_frame x s).2.2.2.1
@[simp] theorem flowQuality_magHdg (x : In) (s : St) : (flowQuality x s).magHdg = s.magHdg := (flowQuality_frame x s).2.2.2.2.1
@[simp] theorem flowQuality_mag3D (x : In) (s : St) : (flowQuality x s).mag3D = s.mag3D := (flowQuality_frame x s).2.2.2.2.2.1
@[simp] theorem flowQuality_magDec (x : In) (s : St) : (flowQuality x s).magDec = s.magDec := (flowQuality_frame x s).2.2.2.2.2.2.1
@[simp] theorem flowQuality_wind (x : In) (s : St) : (flowQuality x s).wind = s.wind := (flowQuality_frame x s).2.2.2.2.2.2.2.1
@[simp] theorem flowQuality_evPos (x : In) (s : St) : (flowQuality x s).evPos = s.evPos := (flowQuality_frame x s).2.2.2.2.2.2.2.2.1
@[simp] theorem flowQuality_evVel (x : In) (s : St) : (flowQuality x s).evVel = s.evVel := (flowQuality_frame x s).2.2.2.2.2.2.2.2.2.1
@[simp] theorem flowQuality_evYaw (x : In) (s : St) : (flowQuality x s).evYaw = s.evYaw := (flowQuality_frame x s).2.2.2.2.2.2.2.2.2.2.1
@[simp] theorem flowQuality_gpsYaw (x : In) (s : St) : (flowQuality x s).gpsYaw = s.gpsYaw := (flowQuality_frame x s).2.2.2.2.2.2.2.2.2.2.2.1
@[simp] theorem flowQuality_magDist (x : In) (s : St) : (flowQuality x s).magDist = s.magDist := (flowQuality_frame x s).2.2.2.2.2.2.2.2.2.2.2.2.1
@[simp] theorem flowQuality_magFault (x : In) (s : St) : (flowQuality x s).magFault = s.magFault := (flowQuality_frame x s).2.2.2.2.2.2.2.2.2.2.2.2.2.1
@[simp] theorem flowQuality_fuseAspd (x : In) (s : St) : (flowQuality x s).fuseAspd = s.fuseAspd := (flowQuality_frame x s).2.2.2.2.2.2.2.2.2.2.2.2.2.2.1
@[simp] theorem flowQuality_magAligned (x : In) (s : St) : (flowQuality x s).magAligned = s.magAligned := (flowQuality_frame x s).2.2.2.2.2.2.2.2.2.2.2.2.2.2.2.1
@[simp] theorem flowQuality_magYawReq (x : In) (s : St) : (flowQuality x s).magYawReq = s.magYawReq := (flowQuality_frame x s).2.2.2.2.2.2.2.2.2.2.2.2.2.2.2.2.1
@[simp] theorem flowQuality_magInhReq (x : In) (s : St) : (flowQuality x s).magInhReq = s.magInhReq := (flowQuality_frame x s).2.2.2.2.2.2.2.2.2.2.2.2.2.2.2.2.2.1
@[simp] theorem flowQuality_velposReq (x : In) (s : St) : (flowQuality x s).velposReq = s.velposReq := (flowQuality_frame x s).2.2.2.2.2.2.2.2.2.2.2.2.2.2.2.2.2.2.1
@[simp] theorem flowQuality_inhibited (x : In) (s : St) : (flowQuality x s).inhibited = s.inhibited := (flowQuality_frame x s).2.2.2.2.2.2.2.2.2.2.2.2.2.2.2.2.2.2.2.1
@[simp] theorem flowQuality_nonMagPrev (x : In) (s : St) : (flowQuality x s).nonMagPrev = s.nonMagPrev := (flowQuality_frame x s).2.2.2.2.2.2.2.2.2.2.2.2.2.2.2.2.2.2.2.2.1
@[simp] theorem flowQuality_yawObs (x : In) (s : St) : (flowQuality x s).yawObs = s.yawObs := (flowQuality_frame x s).2.2.2.2.2.2.2.2.2.2.2.2.2.2.2.2.2.2.2.2.2.1
@[simp] theorem flowQuality_biasObs (x : In) (s : St) : (flowQuality x s).biasObs = s.biasObs := (flowQuality_frame x s).2.2.2.2.2.2.2.2.2.2.2.2.2.2.2.2.2.2.2.2.2.2.1
@[simp] theorem flowQuality_nBad (x : In) (s : St) : (flowQuality x s).nBad = s.nBad := (flowQuality_frame x s).2.2.2.2.2.2.2.2.2.2.2.2.2.2.2.2.2.2.2.2.2.2.2.1
@[simp] theorem flowQuality_declCovReset (x : In) (s : St) : (flowQuality x s).declCovReset = s.declCovReset := (flowQuality_frame x s).2.2.2.2.2.2.2.2.2.2.2.2.2.2.2.2.2.2.2.2.2.2.2.2.1
@[simp] theorem flowQuality_tAlign (x : In) (s : St) : (flowQuality x s).tAlign = s.tAlign := (flowQuality_frame x s).2.2.2.2.2.2.2.2.2.2.2.2.2.2.2.2.2.2.2.2.2.2.2.2.2.1
@[simp] theorem flowQuality_tMov (x : In) (s : St) : (flowQuality x s).tMov = s.tMov := (flowQuality_frame x s).2.2.2.2.2.2.2.2.2.2.2.2.2.2.2.2.2.2.2.2.2.2.2.2.2.2.1
@[simp] theorem flowQuality_tNotInh (x : In) (s : St) : (flowQuality x s).tNotInh = s.tNotInh := (flowQuality_frame x s).2.2.2.2.2.2.2.2.2.2.2.2.2.2.2.2.2.2.2.2.2.2.2.2.2.2.2.1
@[simp] theorem flowQuality_tYaw (x : In) (s : St) : (flowQuality x s).tYaw = s.tYaw := (flowQuality_frame x s).2.2.2.2.2.2.2.2.2.2.2.2.2.2.2.2.2.2.2.2.2.2.2.2.2.2.2.2.1
@[simp] theorem flowQuality_gpsYawFaulty (x : In) (s : St) : (flowQuality x s).gpsYawFaulty = s.gpsYawFaulty := (flowQuality_frame x s).2.2.2.2.2.2.2.2.2.2.2.2.2.2.2.2.2.2.2.2.2.2.2.2.2.2.2.2.2.1
@[simp] theorem flowQuality_doGsf (x : In) (s : St) : (flowQuality x s).doGsf = s.doGsf := (flowQuality_frame x s).2.2.2.2.2.2.2.2.2.2.2.2.2.2.2.2.2.2.2.2.2.2.2.2.2.2.2.2.2.2.1
@[simp] theorem flowQuality_gsfTime (x : In) (s : St) : (flowQuality x s).gsfTime = s.gsfTime := (flowQuality_frame x s).2.2.2.2.2.2.2.2.2.2.2.2.2.2.2.2.2.2.2.2.2.2.2.2.2.2.2.2.2.2.2.1
@[simp] theorem flowQuality_gsfCount (x : In) (s : St) : (flowQuality x s).gsfCount = s.gsfCount := (flowQuality_frame x s).2.2.2.2.2.2.2.2.2.2.2.2.2.2.2.2.2.2.2.2.2.2.2.2.2.2.2.2.2.2.2.2.1
@[simp] theorem flowQuality_tPos (x : In) (s : St) : (flowQuality x s).tPos = s.tPos := (flowQuality_frame x s).2.2.2.2.2.2.2.2.2.2.2.2.2.2.2.2.2.2.2.2.2.2.2.2.2.2.2.2.2.2.2.2.2.1
@[simp] theorem flowQuality_tDelpos (x : In) (s : St) : (flowQuality x s).tDelpos = s.tDelpos := (flowQuality_frame x s).2.2.2.2.2.2.2.2.2.2.2.2.2.2.2.2.2.2.2.2.2.2.2.2.2.2.2.2.2.2.2.2.2.2.1
@[simp] theorem flowQuality_tVel (x : In) (s : St) : (flowQuality x s).tVel = s.tVel := (flowQuality_frame x s).2.2.2.2.2.2.2.2.2.2.2.2.2.2.2.2.2.2.2.2.2.2.2.2.2.2.2.2.2.2.2.2.2.2.2.1
@[simp] theorem flowQuality_tOf (x : In) (s : St) : (flowQuality x s).tOf = s.tOf := (flowQuality_frame x s).2.2.2.2.2.2.2.2.2.2.2.2.2.2.2.2.2.2.2.2.2.2.2.2.2.2.2.2.2.2.2.2.2.2.2.2.1
@[simp] theorem flowQuality_tBeta (x : In) (s : St) : (flowQuality x s).tBeta = s.tBeta := (flowQuality_frame x s).2.2.2.2.2.2.2.2.2.2.2.2.2.2.2.2.2.2.2.2.2.2.2.2.2.2.2.2.2.2.2.2.2.2.2.2.2.1
@[simp] theorem flowQuality_tArsp (x : In) (s : St) : (flowQuality x s).tArsp = s.tArsp := (flowQuality_frame x s).2.2.2.2.2.2.2.2.2.2.2.2.2.2.2.2.2.2.2.2.2.2.2.2.2.2.2.2.2.2.2.2.2.2.2.2.2.2.1
@[simp] theorem flowQuality_tFake (x : In) (s : St) : (flowQuality x s).tFake = s.tFake := (flowQuality_frame x s).2.2.2.2.2.2.2.2.2.2.2.2.2.2.2.2.2.2.2.2.2.2.2.2.2.2.2.2.2.2.2.2.2.2.2.2.2.2.2.1
@[simp] theorem flowQuality_tGpsYaw (x : In) (s : St) : (flowQuality x s).tGpsYaw = s.tGpsYaw := (flowQuality_frame x s).2.2.2.2.2.2.2.2.2.2.2.2.2.2.2.2.2.2.2.2.2.2.2.2.2.2.2.2.2.2.2.2.2.2.2.2.2.2.2.2.1
@[simp] theorem flowQuality_hposPrev (x : In) (s : St) : (flowQuality x s).hposPrev = s.hposPrev := (flowQuality_frame x s).2.2.2.2.2.2.2.2.2.2.2.2.2.2.2.2.2.2.2.2.2.2.2.2.2.2.2.2.2.2.2.2.2.2.2.2.2.2.2.2.2.1
@[simp] theorem flowQuality_hposOdom (x : In) (s : St) : (flowQuality x s).hposOdom = s.hposOdom := (flowQuality_frame x s).2.2.2.2.2.2.2.2.2.2.2.2.2.2.2.2.2.2.2.2.2.2.2.2.2.2.2.2.2.2.2.2.2.2.2.2.2.2.2.2.2.2.1
@[simp] theorem flowQuality_synth (x : In) (s : St) : (flowQuality x s).synth = s.synth := (flowQuality_frame x s).2.2.2.2.2.2.2.2.2.2.2.2.2.2.2.2.2.2.2.2.2.2.2.2.2.2.2.2.2.2.2.2.2.2.2.2.2.2.2.2.2.2.2.1
@[simp] theorem flowQuality_flowInh (x : In) (s : St) : (flowQuality x s).flowInh = s.flowInh := (flowQuality_frame x s).2.2.2.2.2.2.2.2.2.2.2.2.2.2.2.2.2.2.2.2.2.2.2.2.2.2.2.2.2.2.2.2.2.2.2.2.2.2.2.2.2.2.2.2.1
@[simp] theorem flowQuality_tGood (x : In) (s : St) : (flowQuality x s).tGood = s.tGood := (flowQuality_frame x s).2.2.2.2.2.2.2.2.2.2.2.2.2.2.2.2.2.2.2.2.2.2.2.2.2.2.2.2.2.2.2.2.2.2.2.2.2.2.2.2.2.2.2.2.2.1
@[simp] theorem flowQuality_tBad (x : In) (s : St) : (flowQuality x s).tBad = s.tBad := (flowQuality_frame x s).2.2.2.2.2.2.2.2.2.2.2.2.2.2.2.2.2.2.2.2.2.2.2.2.2.2.2.2.2.2.2.2.2.2.2.2.2.2.2.2.2.2.2.2.2.2

theorem stopFlow_frame (s : St) :
    (stopFlow s).tilt = s.tilt ∧ (stopFlow s).yawAlign = s.yawAlign ∧ (stopFlow s).gps = s.gps ∧ (stopFlow s).magHdg = s.magHdg ∧ (stopFlow s).mag3D = s.mag3D ∧ (stopFlow s).magDec = s.magDec ∧ (stopFlow s).wind = s.wind ∧ (stopFlow s).evPos = s.evPos ∧ (stopFlow s).evVel = s.evVel ∧ (stopFlow s).evYaw = s.evYaw ∧ (stopFlow s).gpsYaw = s.gpsYaw ∧ (stopFlow s).magDist = s.magDist ∧ (stopFlow s).magFault = s.magFault ∧ (stopFlow s).fuseAspd = s.fuseAspd ∧ (stopFlow s).magAligned = s.magAligned ∧ (stopFlow s).magYawReq = s.magYawReq ∧ (stopFlow s).magInhReq = s.magInhReq ∧ (stopFlow s).velposReq = s.velposReq ∧ (stopFlow s).inhibited = s.inhibited ∧ (stopFlow s).nonMagPrev = s.nonMagPrev ∧ (stopFlow s).yawObs = s.yawObs ∧ (stopFlow s).biasObs = s.biasObs ∧ (stopFlow s).nBad = s.nBad ∧ (stopFlow s).declCovReset = s.declCovReset ∧ (stopFlow s).tAlign = s.tAlign ∧ (stopFlow s).tMov = s.tMov ∧ (stopFlow s).tNotInh = s.tNotInh ∧ (stopFlow s).tYaw = s.tYaw ∧ (stopFlow s).gpsYawFaulty = s.gpsYawFaulty ∧ (stopFlow s).doGsf = s.doGsf ∧ (stopFlow s).gsfTime = s.gsfTime ∧ (stopFlow s).gsfCount = s.gsfCount ∧ (stopFlow s).tPos = s.tPos ∧ (stopFlow s).tDelpos = s.tDelpos ∧ (stopFlow s).tVel = s.tVel ∧ (stopFlow s).tOf = s.tOf ∧ (stopFlow s).tBeta = s.tBeta ∧ (stopFlow s).tArsp = s.tArsp ∧ (stopFlow s).tFake = s.tFake ∧ (stopFlow s).tGpsYaw = s.tGpsYaw ∧ (stopFlow s).hposPrev = s.hposPrev ∧ (stopFlow s).hposOdom = s.hposOdom ∧ (stopFlow s).synth = s.synth ∧ (stopFlow s).flowReady = s.flowReady ∧ (stopFlow s).flowInh = s.flowInh ∧ (stopFlow s).tGood = s.tGood ∧ (stopFlow s).tBad = s.tBad := by
  unfold stopFlow; simp
@[simp] theorem stopFlow_tilt (s : St) : (stopFlow s).tilt = s.tilt := (stopFlow_frame s).1
@[simp] theorem stopFlow_yawAlign (s : St) : (stopFlow s).yawAlign = s.yawAlign := (stopFlow_frame s).2.1
@[simp] theorem stopFlow_gps (s : St) : (stopFlow s).gps = s.gps := (stopFlow_frame s).2.2.1
@[simp] theorem stopFlow_magHdg (s : St) : (stopFlow s).magHdg = s.magHdg := (stopFlow_frame s).2.2.2.1
@[simp] theorem stopFlow_mag3D (s : St) : (stopFlow s).mag3D = s.mag3D := (stopFlow_frame s).2.2.2.2.1
@[simp] theorem stopFlow_magDec (s : St) : (stopFlow s).magDec = s.magDec := (stopFlow_frame s).2.2.2.2.2.1
@[simp] theorem stopFlow_wind (s : St) : (stopFlow s).wind = s.wind := (stopFlow_frame s).2.2.2.2.2.2.1
@[simp] theorem stopFlow_evPos (s : St) : (stopFlow s).evPos = s.evPos := (stopFlow_frame s).2.2.2.2.2.2.2.1
@[simp] theorem stopFlow_evVel (s : St) : (stopFlow s).evVel = s.evVel := (stopFlow_frame s).2.2.2.2.2.2.2.2.1
@[simp] theorem stopFlow_evYaw (s : St) : (stopFlow s).evYaw = s.evYaw := (stopFlow_frame s).2.2.2.2.2.2.2.2.2.1
@[simp] theorem stopFlow_gpsYaw (s : St) : (stopFlow s).gpsYaw = s.gpsYaw := (stopFlow_frame s).2.2.2.2.2.2.2.2.2.2.1
@[simp] theorem stopFlow_magDist (s : St) : (stopFlow s).magDist = s.magDist := (stopFlow_frame s).2.2.2.2.2.2.2.2.2.2.2.1
@[simp] theorem stopFlow_magFault (s : St) : (stopFlow s).magFault = s.magFault := (stopFlow_frame s).2.2.2.2.2.2.2.2.2.2.2.2.1
@[simp] theorem stopFlow_fuseAspd (s : St) : (stopFlow s).fuseAspd = s.fuseAspd := (stopFlow_frame s).2.2.2.2.2.2.2.2.2.2.2.2.2.1
@[simp] theorem stopFlow_magAligned (s : St) : (stopFlow s).magAligned = s.magAligned := (stopFlow_frame s).2.2.2.2.2.2.2.2.2.2.2.2.2.2.1
@[simp] theorem stopFlow_magYawReq (s : St) : (stopFlow s).magYawReq = s.magYawReq := (stopFlow_frame s).2.2.2.2.2.2.2.2.2.2.2.2.2.2.2.1
@[simp] theorem stopFlow_magInhReq (s : St) : (stopFlow s).magInhReq = s.magInhReq := (stopFlow_frame s).2.2.2.2.2.2.2.2.2.2.2.2.2.2.2.2.1
@[simp] theorem stopFlow_velposReq (s : St) : (stopFlow s).velposReq = s.velposReq := (stopFlow_frame s).2.2.2.2.2.2.2.2.2.2.2.2.2.2.2.2.2.1
@[simp] theorem stopFlow_inhibited (s : St) : (stopFlow s).inhibited = s.inhibited := (stopFlow_frame s).2.2.2.2.2.2.2.2.2.2.2.2.2.2.2.2.2.2.1
@[simp] theorem stopFlow_nonMagPrev (s : St) : (stopFlow s).nonMagPrev = s.nonMagPrev := (stopFlow_frame s).2.2.2.2.2.2.2.2.2.2.2.2.2.2.2.2.2.2.2.1
@[simp] theorem stopFlow_yawObs (s : St) : (stopFlow s).yawObs = s.yawObs := (stopFlow_frame s).2.2.2.2.2.2.2.2.2.2.2.2.2.2.2.2.2.2.2.2.1
@[simp] theorem stopFlow_biasObs (s : St) : (stopFlow s).biasObs = s.biasObs := (stopFlow_frame s).2.2.2.2.2.2.2.2.2.2.2.2.2.2.2.2.2.2.2.2.2.1
@[simp] theorem stopFlow_nBad (s : St) : (stopFlow s).nBad = s.nBad := (stopFlow_frame s).2.2.2.2.2.2.2.2.2.2.2.2.2.2.2.2.2.2.2.2.2.2.1
@[simp] theorem stopFlow_declCovReset (s : St) : (stopFlow s).declCovReset = s.declCovReset := (stopFlow_frame s).2.2.2.2.2.2.2.2.2.2.2.2.2.2.2.2.2.2.2.2.2.2.2.1
@[simp] theorem stopFlow_tAlign (s : St) : (stopFlow s).tAlign = s.tAlign := (stopFlow_frame s).2.2.2.2.2.2.2.2.2.2.2.2.2.2.2.2.2.2.2.2.2.2.2.2.1
@[simp] theorem stopFlow_tMov (s : St) : (stopFlow s).tMov = s.tMov := (stopFlow_frame s).2.2.2.2.2.2.2.2.2.2.2.2.2.2.2.2.2.2.2.2.2.2.2.2.2.1
@[simp] theorem stopFlow_tNotInh (s : St) : (stopFlow s).tNotInh = s.tNotInh := (stopFlow_frame s).2.2.2.2.2.2.2.2.2.2.2.2.2.2.2.2.2.2.2.2.2.2.2.2.2.2.1
@[simp] theorem stopFlow_tYaw (s : St) : (stopFlow s).tYaw = s.tYaw := (stopFlow_frame s).2.2.2.2.2.2.2.2.2.2.2.2.2.2.2.2.2.2.2.2.2.2.2.2.2.2.2.1
@[simp] theorem stopFlow_gpsYawFaulty (s : St) : (stopFlow s).gpsYawFaulty = s.gpsYawFaulty := (stopFlow_frame s).2.2.2.2.2.2.2.2.2.2.2.2.2.2.2.2.2.2.2.2.2.2.2.2.2.2.2.2.1
@[simp] theorem stopFlow_doGsf (s : St) : (stopFlow s).doGsf = s.doGsf := (stopFlow_frame s).2.2.2.2.2.2.2.2.2.2.2.2.2.2.2.2.2.2.2.2.2.2.2.2.2.2.2.2.2.1
@[simp] theorem stopFlow_gsfTime (s : St) : (stopFlow s).gsfTime = s.gsfTime := (stopFlow_frame s).2.2.2.2.2.2.2.2.2.2.2.2.2.2.2.2.2.2.2.2.2.2.2.2.2.2.2.2.2.2.1
@[simp] theorem stopFlow_gsfCount (s : St) : (stopFlow s).gsfCount = s.gsfCount := (stopFlow_frame s).2.2.2.2.2.2.2.2.2.2.2.2.2.2.2.2.2.2.2.2.2.2.2.2.2.2.2.2.2.2.2.1
@[simp] theorem stopFlow_tPos (s : St) : (stopFlow s).tPos = s.tPos := (stopFlow_frame s).2.2.2.2.2.2.2.2.2.2.2.2.2.2.2.2.2.2.2.2.2.2.2.2.2.2.2.2.2.2.2.2.1
@[simp] theorem stopFlow_tDelpos (s : St) : (stopFlow s).tDelpos = s.tDelpos := (stopFlow_frame s).2.2.2.2.2.2.2.2.2.2.2.2.2.2.2.2.2.2.2.2.2.2.2.2.2.2.2.2.2.2.2.2.2.1
@[simp] theorem stopFlow_tVel (s : St) : (stopFlow s).tVel = s.tVel := (stopFlow_frame s).2.2.2.2.2.2.2.2.2.2.2.2.2.2.2.2.2.2.2.2.2.2.2.2.2.2.2.2.2.2.2.2.2.2.1
@[simp] theorem stopFlow_tOf (s : St) : (stopFlow s).tOf = s.tOf := (stopFlow_frame s).2.2.2.2.2.2.2.2.2.2.2.2.2.2.2.2.2.2.2.2.2.2.2.2.2.2.2.2.2.2.2.2.2.2.2.1
@[simp] theorem stopFlow_tBeta (s : St) : (stopFlow s).tBeta = s.tBeta := (stopFlow_frame s).2.2.2.2.2.2.2.2.2.2.2.2.2.2.2.2.2.2.2.2.2.2.2.2.2.2.2.2.2.2.2.2.2.2.2.2.1
@[simp] theorem stopFlow_tArsp (s : St) : (stopFlow s).tArsp = s.tArsp := (stopFlow_frame s).2.2.2.2.2.2.2.2.2.2.2.2.2.2.2.2.2.2.2.2.2.2.2.2.2.2.2.2.2.2.2.2.2.2.2.2.2.1
@[simp] theorem stopFlow_tFake (s : St) : (stopFlow s).tFake = s.tFake := (stopFlow_frame s).2.2.2.2.2.2.2.2.2.2.2.2.2.2.2.2.2.2.2.2.2.2.2.2.2.2.2.2.2.2.2.2.2.2.2.2.2.2.1
@[simp] theorem stopFlow_tGpsYaw (s : St) : (stopFlow s).tGpsYaw = s.tGpsYaw := (stopFlow_frame s).2.2.2.2.2.2.2.2.2.2.2.2.2.2.2.2.2.2.2.2.2.2.2.2.2.2.2.2.2.2.2.2.2.2.2.2.2.2.2.1
@[simp] theorem stopFlow_hposPrev (s : St) : (stopFlow s).hposPrev = s.hposPrev := (stopFlow_frame s).2.2.2.2.2.2.2.2.2.2.2.2.2.2.2.2.2.2.2.2.2.2.2.2.2.2.2.2.2.2.2.2.2.2.2.2.2.2.2.2.1
@[simp] theorem stopFlow_hposOdom (s : St) : (stopFlow s).hposOdom = s.hposOdom := (stopFlow_frame s).2.2.2.2.2.2.2.2.2.2.2.2.2.2.2.2.2.2.2.2.2.2.2.2.2.2.2.2.2.2.2.2.2.2.2.2.2.2.2.2.2.1
@[simp] theorem stopFlow_synth (s : St) : (stopFlow s).synth = s.synth := (stopFlow_frame s).2.2.2.2.2.2.2.2.2.2.2.2.2.2.2.2.2.2.2.2.2.2.2.2.2.2.2.2.2.2.2.2.2.2.2.2.2.2.2.2.2.2.1
@[simp] theorem stopFlow_flowReady (s : St) : (stopFlow s).flowReady = s.flowReady := (stopFlow_frame s).2.2.2.2.2.2.2.2.2.2.2.2.2.2.2.2.2.2.2.2.2.2.2.2.2.2.2.2.2.2.2.2.2.2.2.2.2.2.2.2.2.2.2.1
@[simp] theorem stopFlow_flowInh (s : St) : (stopFlow s).flowInh = s.flowInh := (stopFlow_frame s).2.2.2.2.2.2.2.2.2.2.2.2.2.2.2.2.2.2.2.2.2.2.2.2.2.2.2.2.2.2.2.2.2.2.2.2.2.2.2.2.2.2.2.2.1
@[simp] theorem stopFlow_tGood (s : St) : (stopFlow s).tGood = s.tGood := (stopFlow_frame s).2.2.2.2.2.2.2.2.2.2.2.2.2.2.2.2.2.2.2.2.2.2.2.2.2.2.2.2.2.2.2.2.2.2.2.2.2.2.2.2.2.2.2.2.2.1
@[simp] theorem stopFlow_tBad (s : St) : (stopFlow s).tBad = s.tBad := (stopFlow_frame s).2.2.2.2.2.2.2.2.2.2.2.2.2.2.2.2.2.2.2.2.2.2.2.2.2.2.2.2.2.2.2.2.2.2.2.2.2.2.2.2.2.2.2.2.2.2

theorem flowStart_frame (x : In) (s : St) :
    (flowStart x s).tilt = s.tilt ∧ (flowStart x s).gps = s.gps ∧ (flowStart x s).magDec = s.magDec ∧ (flowStart x s).wind = s.wind ∧ (flowStart x s).evPos = s.evPos ∧ (flowStart x s).evVel = s.evVel ∧ (flowStart x s).evYaw = s.evYaw ∧ (flowStart x s).gpsYaw = s.gpsYaw ∧ (flowStart x s).magDist = s.magDist ∧ (flowStart x s).magFault = s.magFault ∧ (flowStart x s).fuseAspd = s.fuseAspd ∧ (flowStart x s).magAligned = s.magAligned ∧ (flowStart x s).magYawReq = s.magYawReq ∧ (flowStart x s).magInhReq = s.magInhReq ∧ (flowStart x s).velposReq = s.velposReq ∧ (flowStart x s).inhibited = s.inhibited ∧ (flowStart x s).nonMagPrev = s.nonMagPrev ∧ (flowStart x s).yawObs = s.yawObs ∧ (flowStart x s).biasObs = s.biasObs ∧ (flowStart x s).nBad = s.nBad ∧ (flowStart x s).tMov = s.tMov ∧ (flowStart x s).tNotInh = s.tNotInh ∧ (flowStart x s).tYaw = s.tYaw ∧ (flowStart x s).gpsYawFaulty = s.gpsYawFaulty ∧ (flowStart x s).doGsf = s.doGsf ∧ (flowStart x s).gsfTime = s.gsfTime ∧ (flowStart x s).gsfCount = s.gsfCount ∧ (flowStart x s).tPos = s.tPos ∧ (flowStart x s).tDelpos = s.tDelpos ∧ (flowStart x s).tVel = s.tVel ∧ (flowStart x s).tBeta = s.tBeta ∧ (flowStart x s).tArsp = s.tArsp ∧ (flowStart x s).tFake = s.tFake ∧ (flowStart x s).tGpsYaw = s.tGpsYaw ∧ (flowStart x s).hposOdom = s.hposOdom ∧ (flowStart x s).synth = s.synth ∧ (flowStart x s).flowReady = s.flowReady ∧ (flowStart x s).flowInh = s.flowInh ∧ (flowStart x s).tGood = s.tGood ∧ (flowStart x s).tBad = s.tBad := by
  unfold flowStart; (try dsimp only); split_ifs <;> simp [*]
@[simp] theorem flowStart_tilt (x : In) (s : St) : (flowStart x s).tilt = s.tilt := (flowStart_frame x s).1
@[simp] theorem flowStart_gps (x : In) (s : St) : (flowStart x s).gps = s.gps := (flowStart_frame x s).2.1
@[simp] theorem flowStart_magDec (x : In) (s : St) : (flowStart x s).magDec = s.magDec := (flowStart_frame x s).2.2.1
@[simp] theorem flowStart_wind (x : In) (s : St) : (flowStart x s).wind = s.wind := (flowStart_frame x s).2.2.2.1
@[simp] theorem flowStart_evPos (x : In) (s : St) : (flowStart x s).evPos = s.evPos := (flowStart_frame x s).2.2.2.2.1
@[simp] theorem flowStart_evVel (x : In) (s : St) : (flowStart x s).evVel = s.evVel := (flowStart_frame x s).2.2.2.2.2.1
@[simp] theorem flowStart_evYaw (x : In) (s : St) : (flowStart x s).evYaw = s.evYaw := (flowStart_frame x s).2.2.2.2.2.2.1
@[simp] theorem flowStart_gpsYaw (x : In) (s : St) : (flowStart x s).gpsYaw = s.gpsYaw := (flowStart_frame x s).2.2.2.2.2.2.2.1
@[simp] theorem flowStart_magDist (x : In) (s : St) : (flowStart x s).magDist = s.magDist := (flowStart_frame x s).2.2.2.2.2.2.2.2.1
@[simp] theorem flowStart_magFault (x : In) (s : St) : (flowStart x s).magFault = s.magFault := (flowStart_frame x s).2.2.2.2.2.2.2.2.2.1
@[simp] theorem flowStart_fuseAspd (x : In) (s : St) : (flowStart x s).fuseAspd = s.fuseAspd := (flowStart_frame x s).2.2.2.2.2.2.2.2.2.2.1
@[simp] theorem flowStart_magAligned (x : In) (s : St) : (flowStart x s).magAligned = s.magAligned := (flowStart_frame x s).2.2.2.2.2.2.2.2.2.2.2.1
@[simp] theorem flowStart_magYawReq (x : In) (s : St) : (flowStart x s).magYawReq = s.magYawReq := (flowStart_frame x s).2.2.2.2.2.2.2.2.2.2.2.2.1
@[simp] theorem flowStart_magInhReq (x : In) (s : St) : (flowStart x s).magInhReq = s.magInhReq := (flowStart_frame x s).2.2.2.2.2.2.2.2.2.2.2.2.2.1
@[simp] theorem flowStart_velposReq (x : In) (s : St) : (flowStart x s).velposReq = s.velposReq := (flowStart_frame x s).2.2.2.2.2.2.2.2.2.2.2.2.2.2.1
@[simp] theorem flowStart_inhibited (x : In) (s : St) : (flowStart x s).inhibited = s.inhibited := (flowStart_frame x s).2.2.2.2.2.2.2.2.2.2.2.2.2.2.2.1
@[simp] theorem flowStart_nonMagPrev (x : In) (s : St) : (flowStart x s).nonMagPrev = s.nonMagPrev := (flowStart_frame x s).2.2.2.2.2.2.2.2.2.2.2.2.2.2.2.2.1
@[simp] theorem flowStart_yawObs (x : In) (s : St) : (flowStart x s).yawObs = s.yawObs := (flowStart_frame x s).2.2.2.2.2.2.2.2.2.2.2.2.2.2.2.2.2.1
@[simp] theorem flowStart_biasObs (x : In) (s : St) : (flowStart x s).biasObs = s.biasObs := (flowStart_frame x s).2.2.2.2.2.2.2.2.2.2.2.2.2.2.2.2.2.2.1
@[simp] theorem flowStart_nBad (x : In) (s : St) : (flowStart x s).nBad = s.nBad := (flowStart_frame x s).2.2.2.2.2.2.2.2.2.2.2.2.2.2.2.2.2.2.2.1
@[simp] theorem flowStart_tMov (x : In) (s : St) : (flowStart x s).tMov = s.tMov := (flowStart_frame x s).2.2.2.2.2.2.2.2.2.2.2.2.2.2.2.2.2.2.2.2.1
@[simp] theorem flowStart_tNotInh (x : In) (s : St) : (flowStart x s).tNotInh = s.tNotInh := (flowStart_frame x s).2.2.2.2.2.2.2.2.2.2.2.2.2.2.2.2.2.2.2.2.2.1
@[simp] theorem flowStart_tYaw (x : In) (s : St) : (flowStart x s).tYaw = s.tYaw := (flowStart_frame x s).2.2.2.2.2.2.2.2.2.2.2.2.2.2.2.2.2.2.2.2.2.2.1
@[simp] theorem flowStart_gpsYawFaulty (x : In) (s : St) : (flowStart x s).gpsYawFaulty = s.gpsYawFaulty := (flowStart_frame x s).2.2.2.2.2.2.2.2.2.2.2.2.2.2.2.2.2.2.2.2.2.2.2.1
@[simp] theorem flowStart_doGsf (x : In) (s : St) : (flowStart x s).doGsf = s.doGsf := (flowStart_frame x s).2.2.2.2.2.2.2.2.2.2.2.2.2.2.2.2.2.2.2.2.2.2.2.2.1
@[simp] theorem flowStart_gsfTime (x : In) (s : St) : (flowStart x s).gsfTime = s.gsfTime := (flowStart_frame x s).2.2.2.2.2.2.2.2.2.2.2.2.2.2.2.2.2.2.2.2.2.2.2.2.2.1
@[simp] theorem flowStart_gsfCount (x : In) (s : St) : (flowStart x s).gsfCount = s.gsfCount := (flowStart_frame x s).2.2.2.2.2.2.2.2.2.2.2.2.2.2.2.2.2.2.2.2.2.2.2.2.2.2.1
@[simp] theorem flowStart_tPos (x : In) (s : St) : (flowStart x s).tPos = s.tPos := (flowStart_frame x s).2.2.2.2.2.2.2.2.2.2.2.2.2.2.2.2.2.2.2.2.2.2.2.2.2.2.2.1
@[simp] theorem flowStart_tDelpos (x : In) (s : St) : (flowStart x s).tDelpos = s.tDelpos := (flowStart_frame x s).2.2.2.2.2.2.2.2.2.2.2.2.2.2.2.2.2.2.2.2.2.2.2.2.2.2.2.2.1
@[simp] theorem flowStart_tVel (x : In) (s : St) : (flowStart x s).tVel = s.tVel := (flowStart_frame x s).2.2.2.2.2.2.2.2.2.2.2.2.2.2.2.2.2.2.2.2.2.2.2.2.2.2.2.2.2.1
@[simp] theorem flowStart_tBeta (x : In) (s : St) : (flowStart x s).tBeta = s.tBeta := (flowStart_frame x s).2.2.2.2.2.2.2.2.2.2.2.2.2.2.2.2.2.2.2.2.2.2.2.2.2.2.2.2.2.2.1
@[simp] theorem flowStart_tArsp (x : In) (s : St) : (flowStart x s).tArsp = s.tArsp := (flowStart_frame x s).2.2.2.2.2.2.2.2.2.2.2.2.2.2.2.2.2.2.2.2.2.2.2.2.2.2.2.2.2.2.2.1
@[simp] theorem flowStart_tFake (x : In) (s : St) : (flowStart x s).tFake = s.tFake := (flowStart_frame x s).2.2.2.2.2.2.2.2.2.2.2.2.2.2.2.2.2.2.2.2.2.2.2.2.2.2.2.2.2.2.2.2.1
@[simp] theorem flowStart_tGpsYaw (x : In) (s : St) : (flowStart x s).tGpsYaw = s.tGpsYaw := (flowStart_frame x s).2.2.2.2.2.2.2.2.2.2.2.2.2.2.2.2.2.2.2.2.2.2.2.2.2.2.2.2.2.2.2.2.2.1
@[simp] theorem flowStart_hposOdom (x : In) (s : St) : (flowStart x s).hposOdom = s.hposOdom := (flowStart_frame x s).2.2.2.2.2.2.2.2.2.2.2.2.2.2.2.2.2.2.2.2.2.2.2.2.2.2.2.2.2.2.2.2.2.2.1
@[simp] theorem flowStart_synth (x : In) (s : St) : (flowStart x s).synth = s.synth := (flowStart_frame x s).2.2.2.2.2.2.2.2.2.2.2.2.2.2.2.2.2.2.2.2.2.2.2.2.2.2.2.2.2.2.2.2.2.2.2.1
@[simp] theorem flowStart_flowReady (x : In) (s : St) : (flowStart x s).flowReady = s.flowReady := (flowStart_frame x s).2.2.2.2.2.2.2.2.2.2.2.2.2.2.2.2.2.2.2.2.2.2.2.2.2.2.2.2.2.2.2.2.2.2.2.2.1
@[simp] theorem flowStart_flowInh (x : In) (s : St) : (flowStart x s).flowInh = s.flowInh := (flowStart_frame x s).2.2.2.2.2.2.2.2.2.2.2.2.2.2.2.2.2.2.2.2.2.2.2.2.2.2.2.2.2.2.2.2.2.2.2.2.2.1
@[simp] theorem flowStart_tGood (x : In) (s : St) : (flowStart x s).tGood = s.tGood := (flowStart_frame x s).2.2.2.2.2.2.2.2.2.2.2.2.2.2.2.2.2.2.2.2.2.2.2.2.2.2.2.2.2.2.2.2.2.2.2.2.2.2.1
@[simp] theorem flowStart_tBad (x : In) (s : St) : (flowStart x s).tBad = s.tBad := (flowStart_frame x s).2.2.2.2.2.2.2.2.2.2.2.2.2.2.2.2.2.2.2.2.2.2.2.2.2.2.2.2.2.2.2.2.2.2.2.2.2.2.2

theorem flowUse_frame (x : In) (s : St) :
    (flowUse x s).tilt = s.tilt ∧ (flowUse x s).yawAlign = s.yawAlign ∧ (flowUse x s).gps = s.gps ∧ (flowUse x s).optFlow = s.optFlow ∧ (flowUse x s).magHdg = s.magHdg ∧ (flowUse x s).mag3D = s.mag3D ∧ (flowUse x s).magDec = s.magDec ∧ (flowUse x s).wind = s.wind ∧ (flowUse x s).evPos = s.evPos ∧ (flowUse x s).evVel = s.evVel ∧ (flowUse x s).evYaw = s.evYaw ∧ (flowUse x s).gpsYaw = s.gpsYaw ∧ (flowUse x s).magDist = s.magDist ∧ (flowUse x s).magFault = s.magFault ∧ (flowUse x s).fuseAspd = s.fuseAspd ∧ (flowUse x s).magAligned = s.magAligned ∧ (flowUse x s).magYawReq = s.magYawReq ∧ (flowUse x s).magInhReq = s.magInhReq ∧ (flowUse x s).velposReq = s.velposReq ∧ (flowUse x s).inhibited = s.inhibited ∧ (flowUse x s).nonMagPrev = s.nonMagPrev ∧ (flowUse x s).yawObs = s.yawObs ∧ (flowUse x s).biasObs = s.biasObs ∧ (flowUse x s).nBad = s.nBad ∧ (flowUse x s).declCovReset = s.declCovReset ∧ (flowUse x s).tAlign = s.tAlign ∧ (flowUse x s).tMov = s.tMov ∧ (flowUse x s).tNotInh = s.tNotInh ∧ (flowUse x s).tYaw = s.tYaw ∧ (flowUse x s).gpsYawFaulty = s.gpsYawFaulty ∧ (flowUse x s).doGsf = s.doGsf ∧ (flowUse x s).gsfTime = s.gsfTime ∧ (flowUse x s).gsfCount = s.gsfCount ∧ (flowUse x s).tPos = s.tPos ∧ (flowUse x s).tDelpos = s.tDelpos ∧ (flowUse x s).tVel = s.tVel ∧ (flowUse x s).tBeta = s.tBeta ∧ (flowUse x s).tArsp = s.tArsp ∧ (flowUse x s).tFake = s.tFake ∧ (flowUse x s).tGpsYaw = s.tGpsYaw ∧ (flowUse x s).hposOdom = s.hposOdom ∧ (flowUse x s).synth = s.synth ∧ (flowUse x s).flowInh = s.flowInh ∧ (flowUse x s).tGood = s.tGood ∧ (flowUse x s).tBad = s.tBad := by
  unfold flowUse; (try dsimp only); split_ifs <;> simp [*]
@[simp] theorem flowUse_tilt (x : In) (s : St) : (flowUse x s).tilt = s.tilt := (flowUse_frame x s).1
@[simp] theorem flowUse_yawAlign (x : In) (s : St) : (flowUse x s).yawAlign = s.yawAlign := (flowUse_frame x s).2.1
@[simp] theorem flowUse_gps (x : In) (s : St) : (flowUse x s).gps = s.gps := (flowUse_frame x s).2.2.1
@[simp] theorem flowUse_optFlow (x : In) (s : St) : (flowUse x s).optFlow = s.optFlow := (flowUse_frame x s).2.2.2.1
@[simp] theorem flowUse_magHdg (x : In) (s : St) : (flowUse x s).magHdg = s.magHdg := (flowUse_frame x s).2.2.2.2.1
@[simp] theorem flowUse_mag3D (x : In) (s : St) : (flowUse x s).mag3D = s.mag3D := (flowUse_frame x s).2.2.2.2.2.1
@[simp] theorem flowUse_magDec (x : In) (s : St) : (flowUse x s).magDec = s.magDec := (flowUse_frame x s).2.2.2.2.2.2.1
@[simp] theorem flowUse_wind (x : In) (s : St) : (flowUse x s).wind = s.wind := (flowUse_frame x s).2.2.2.2.2.2.2.1
@[simp] theorem flowUse_evPos (x : In) (s : St) : (flowUse x s).evPos = s.evPos := (flowUse_frame x s).2.2.2.2.2.2.2.2.1
@[simp] theorem flowUse_evVel (x : In) (s : St) : (flowUse x s).evVel = s.evVel := (flowUse_frame x s).2.2.2.2.2.2.2.2.2.1
@[simp] theorem flowUse_evYaw (x : In) (s : St) : (flowUse x s).evYaw = s.evYaw := (flowUse_frame x s).2.2.2.2.2.2.2.2.2.2.1
@[simp] theorem flowUse_gpsYaw (x : In) (s : St) : (flowUse x s).gpsYaw = s.gpsYaw := (flowUse_frame x s).2.2.2.2.2.2.2.2.2.2.2.1
@[simp] theorem flowUse_magDist (x : In) (s : St) : (flowUse x s).magDist = s.magDist := (flowUse_frame x s).2.2.2.2.2.2.2.2.2.2.2.2.1
@[simp] theorem flowUse_magFault (x : In) (s : St) : (flowUse x s).magFault = s.magFault := (flowUse_frame x s).2.2.2.2.2.2.2.2.2.2.2.2.2.1
@[simp] theorem flowUse_fuseAspd (x : In) (s : St) : (flowUse x s).fuseAspd = s.fuseAspd := (flowUse_frame x s).2.2.2.2.2.2.2.2.2.2.2.2.2.2.1
@[simp] theorem flowUse_magAligned (x : In) (s : St) : (flowUse x s).magAligned = s.magAligned := (flowUse_frame x s).2.2.2.2.2.2.2.2.2.2.2.2.2.2.2.1
@[simp] theorem flowUse_magYawReq (x : In) (s : St) : (flowUse x s).magYawReq = s.magYawReq := (flowUse_frame x s).2.2.2.2.2.2.2.2.2.2.2.2.2.2.2.2.1
@[simp] theorem flowUse_magInhReq (x : In) (s : St) : (flowUse x s).magInhReq = s.magInhReq := (flowUse_frame x s).2.2.2.2.2.2.2.2.2.2.2.2.2.2.2.2.2.1
@[simp] theorem flowUse_velposReq (x : In) (s : St) : (flowUse x s).velposReq = s.velposReq := (flowUse_frame x s).2.2.2.2.2.2.2.2.2.2.2.2.2.2.2.2.2.2.1
@[simp] theorem flowUse_inhibited (x : In) (s : St) : (flowUse x s).inhibited = s.inhibited := (flowUse_frame x s).2.2.2.2.2.2.2.2.2.2.2.2.2.2.2.2.2.2.2.1
@[simp] theorem flowUse_nonMagPrev (x : In) (s : St) : (flowUse x s).nonMagPrev = s.nonMagPrev := (flowUse_frame x s).2.2.2.2.2.2.2.2.2.2.2.2.2.2.2.2.2.2.2.2.1
@[simp] theorem flowUse_yawObs (x : In) (s : St) : (flowUse x s).yawObs = s.yawObs := (flowUse_frame x s).2.2.2.2.2.2.2.2.2.2.2.2.2.2.2.2.2.2.2.2.2.1
@[simp] theorem flowUse_biasObs (x : In) (s : St) : (flowUse x s).biasObs = s.biasObs := (flowUse_frame x s).2.2.2.2.2.2.2.2.2.2.2.2.2.2.2.2.2.2.2.2.2.2.1
@[simp] theorem flowUse_nBad (x : In) (s : St) : (flowUse x s).nBad = s.nBad := (flowUse_frame x s).2.2.2.2.2.2.2.2.2.2.2.2.2.2.2.2.2.2.2.2.2.2.2.1
@[simp] theorem flowUse_declCovReset (x : In) (s : St) : (flowUse x s).declCovReset = s.declCovReset := (flowUse_frame x s).2.2.2.2.2.2.2.2.2.2.2.2.2.2.2.2.2.2.2.2.2.2.2.2.1
@[simp] theorem flowUse_tAlign (x : In) (s : St) : (flowUse x s).tAlign = s.tAlign := (flowUse_frame x s).2.2.2.2.2.2.2.2.2.2.2.2.2.2.2.2.2.2.2.2.2.2.2.2.2.1
@[simp] theorem flowUse_tMov (x : In) (s : St) : (flowUse x s).tMov = s.tMov := (flowUse_frame x s).2.2.2.2.2.2.2.2.2.2.2.2.2.2.2.2.2.2.2.2.2.2.2.2.2.2.1
@[simp] theorem flowUse_tNotInh (x : In) (s : St) : (flowUse x s).tNotInh = s.tNotInh := (flowUse_frame x s).2.2.2.2.2.2.2.2.2.2.2.2.2.2.2.2.2.2.2.2.2.2.2.2.2.2.2.1
@[simp] theorem flowUse_tYaw (x : In) (s : St) : (flowUse x s).tYaw = s.tYaw := (flowUse_frame x s).2.2.2.2.2.2.2.2.2.2.2.2.2.2.2.2.2.2.2.2.2.2.2.2.2.2.2.2.1
@[simp] theorem flowUse_gpsYawFaulty (x : In) (s : St) : (flowUse x s).gpsYawFaulty = s.gpsYawFaulty := (flowUse_frame x s).2.2.2.2.2.2.2.2.2.2.2.2.2.2.2.2.2.2.2.2.2.2.2.2.2.2.2.2.2.1
@[simp] theorem flowUse_doGsf (x : In) (s : St) : (flowUse x s).doGsf = s.doGsf := (flowUse_frame x s).2.2.2.2.2.2.2.2.2.2.2.2.2.2.2.2.2.2.2.2.2.2.2.2.2.2.2.2.2.2.1
@[simp] theorem flowUse_gsfTime (x : In) (s : St) : (flowUse x s).gsfTime = s.gsfTime := (flowUse_frame x s).2.2.2.2.2.2.2.2.2.2.2.2.2.2.2.2.2.2.2.2.2.2.2.2.2.2.2.2.2.2.2.1
@[simp] theorem flowUse_gsfCount (x : In) (s : St) : (flowUse x s).gsfCount = s.gsfCount := (flowUse_frame x s).2.2.2.2.2.2.2.2.2.2.2.2.2.2.2.2.2.2.2.2.2.2.2.2.2.2.2.2.2.2.2.2.1
@[simp] theorem flowUse_tPos (x : In) (s : St) : (flowUse x s).tPos = s.tPos := (flowUse_frame x s).2.2.2.2.2.2.2.2.2.2.2.2.2.2.2.2.2.2.2.2.2.2.2.2.2.2.2.2.2.2.2.2.2.1
@[simp] theorem flowUse_tDelpos (x : In) (s : St) : (flowUse x s).tDelpos = s.tDelpos := (flowUse_frame x s).2.2.2.2.2.2.2.2.2.2.2.2.2.2.2.2.2.2.2.2.2.2.2.2.2.2.2.2.2.2.2.2.2.2.1
@[simp] theorem flowUse_tVel (x : In) (s : St) : (flowUse x s).tVel = s.tVel := (flowUse_frame x s).2.2.2.2.2.2.2.2.2.2.2.2.2.2.2.2.2.2.2.2.2.2.2.2.2.2.2.2.2.2.2.2.2.2.2.1
@[simp] theorem flowUse_tBeta (x : In) (s : St) : (flowUse x s).tBeta = s.tBeta := (flowUse_frame x s).2.2.2.2.2.2.2.2.2.2.2.2.2.2.2.2.2.2.2.2.2.2.2.2.2.2.2.2.2.2.2.2.2.2.2.2.1
@[simp] theorem flowUse_tArsp (x : In) (s : St) : (flowUse x s).tArsp = s.tArsp := (flowUse_frame x s).2.2.2.2.2.2.2.2.2.2.2.2.2.2.2.2.2.2.2.2.2.2.2.2.2.2.2.2.2.2.2.2.2.2.2.2.2.1
@[simp] theorem flowUse_tFake (x : In) (s : St) : (flowUse x s).tFake = s.tFake := (flowUse_frame x s).2.2.2.2.2.2.2.2.2.2.2.2.2.2.2.2.2.2.2.2.2.2.2.2.2.2.2.2.2.2.2.2.2.2.2.2.2.2.1
@[simp] theorem flowUse_tGpsYaw (x : In) (s : St) : (flowUse x s).tGpsYaw = s.tGpsYaw := (flowUse_frame x s).2.2.2.2.2.2.2.2.2.2.2.2.2.2.2.2.2.2.2.2.2.2.2.2.2.2.2.2.2.2.2.2.2.2.2.2.2.2.2.1
@[simp] theorem flowUse_hposOdom (x : In) (s : St) : (flowUse x s).hposOdom = s.hposOdom := (flowUse_frame x s).2.2.2.2.2.2.2.2.2.2.2.2.2.2.2.2.2.2.2.2.2.2.2.2.2.2.2.2.2.2.2.2.2.2.2.2.2.2.2.2.1
@[simp] theorem flowUse_synth (x : In) (s : St) : (flowUse x s).synth = s.synth := (flowUse_frame x s).2.2.2.2.2.2.2.2.2.2.2.2.2.2.2.2.2.2.2.2.2.2.2.2.2.2.2.2.2.2.2.2.2.2.2.2.2.2.2.2.2.1
@[simp] theorem flowUse_flowInh (x : In) (s : St) : (flowUse x s).flowInh = s.flowInh := (flowUse_frame x s).2.2.2.2.2.2.2.2.2.2.2.2.2.2.2.2.2.2.2.2.2.2.2.2.2.2.2.2.2.2.2.2.2.2.2.2.2.2.2.2.2.2.1
@[simp] theorem flowUse_tGood (x : In) (s : St) : (flowUse x s).tGood = s.tGood := (flowUse_frame x s).2.2.2.2.2.2.2.2.2.2.2.2.2.2.2.2.2.2.2.2.2.2.2.2.2.2.2.2.2.2.2.2.2.2.2.2.2.2.2.2.2.2.2.1
@[simp] theorem flowUse_tBad (x : In) (s : St) : (flowUse x s).tBad = s.tBad := (flowUse_frame x s).2.2.2.2.2.2.2.2.2.2.2.2.2.2.2.2.2.2.2.2.2.2.2.2.2.2.2.2.2.2.2.2.2.2.2.2.2.2.2.2.2.2.2.2

theorem controlFlow_frame (x : In) (s : St) :
    (controlFlow x s).tilt = s.tilt ∧ (controlFlow x s).gps = s.gps ∧ (controlFlow x s).magDec = s.magDec ∧ (controlFlow x s).wind = s.wind ∧ (controlFlow x s).evPos = s.evPos ∧ (controlFlow x s).evVel = s.evVel ∧ (controlFlow x s).evYaw = s.evYaw ∧ (controlFlow x s).gpsYaw = s.gpsYaw ∧ (controlFlow x s).magDist = s.magDist ∧ (controlFlow x s).magFault = s.magFault ∧ (controlFlow x s).fuseAspd = s.fuseAspd ∧ (controlFlow x s).magAligned = s.magAligned ∧ (controlFlow x s).magYawReq = s.magYawReq ∧ (controlFlow x s).magInhReq = s.magInhReq ∧ (controlFlow x s).velposReq = s.velposReq ∧ (controlFlow x s).inhibited = s.inhibited ∧ (controlFlow x s).nonMagPrev = s.nonMagPrev ∧ (controlFlow x s).yawObs = s.yawObs ∧ (controlFlow x s).biasObs = s.biasObs ∧ (controlFlow x s).nBad = s.nBad ∧ (controlFlow x s).tMov = s.tMov ∧ (controlFlow x s).tNotInh = s.tNotInh ∧ (controlFlow x s).tYaw = s.tYaw ∧ (controlFlow x s).gpsYawFaulty = s.gpsYawFaulty ∧ (controlFlow x s).doGsf = s.doGsf ∧ (controlFlow x s).gsfTime = s.gsfTime ∧ (controlFlow x s).gsfCount = s.gsfCount ∧ (controlFlow x s).tPos = s.tPos ∧ (controlFlow x s).tDelpos = s.tDelpos ∧ (controlFlow x s).tVel = s.tVel ∧ (controlFlow x s).tBeta = s.tBeta ∧ (controlFlow x s).tArsp = s.tArsp ∧ (controlFlow x s).tFake = s.tFake ∧ (controlFlow x s).tGpsYaw = s.tGpsYaw ∧ (controlFlow x s).hposOdom = s.hposOdom ∧ (controlFlow x s).synth = s.synth := by
  unfold controlFlow; (try dsimp only); split_ifs <;> simp [*]
@[simp] theorem controlFlow_tilt (x : In) (s : St) : (controlFlow x s).tilt = s.tilt := (controlFlow_frame x s).1
@[simp] theorem controlFlow_gps (x : In) (s : St) : (controlFlow x s).gps = s.gps := (controlFlow_frame x s).2.1
@[simp] theorem controlFlow_magDec (x : In) (s : St) : (controlFlow x s).magDec = s.magDec := (controlFlow_frame x s).2.2.1
@[simp] theorem controlFlow_wind (x : In) (s : St) : (controlFlow x s).wind = s.wind := (controlFlow_frame x s).2.2.2.1
@[simp] theorem controlFlow_evPos (x : In) (s : St) : (controlFlow x s).evPos = s.evPos := (controlFlow_frame x s).2.2.2.2.1
@[simp] theorem controlFlow_evVel (x : In) (s : St) : (controlFlow x s).evVel = s.evVel := (controlFlow_frame x s).2.2.2.2.2.1
@[simp] theorem controlFlow_evYaw (x : In) (s : St) : (controlFlow x s).evYaw = s.evYaw := (controlFlow_frame x s).2.2.2.2.2.2.1
@[simp] theorem controlFlow_gpsYaw (x : In) (s : St) : (controlFlow x s).gpsYaw = s.gpsYaw := (controlFlow_frame x s).2.2.2.2.2.2.2.1
@[simp] theorem controlFlow_magDist (x : In) (s : St) : (controlFlow x s).magDist = s.magDist := (controlFlow_frame x s).2.2.2.2.2.2.2.2.1
@[simp] theorem controlFlow_magFault (x : In) (s : St) : (controlFlow x s).magFault = s.magFault := (controlFlow_frame x s).2.2.2.2.2.2.2.2.2.1
@[simp] theorem controlFlow_fuseAspd (x : In) (s : St) : (controlFlow x s).fuseAspd = s.fuseAspd := (controlFlow_frame x s).2.2.2.2.2.2.2.2.2.2.1
@[simp] theorem controlFlow_magAligned (x : In) (s : St) : (controlFlow x s).magAligned = s.magAligned := (controlFlow_frame x s).2.2.2.2.2.2.2.2.2.2.2.1
@[simp] theorem controlFlow_magYawReq (x : In) (s : St) : (controlFlow x s).magYawReq = s.magYawReq := (controlFlow_frame x s).2.2.2.2.2.2.2.2.2.2.2.2.1
@[simp] theorem controlFlow_magInhReq (x : In) (s : St) : (controlFlow x s).magInhReq = s.magInhReq := (controlFlow_frame x s).2.2.2.2.2.2.2.2.2.2.2.2.2.1
@[simp] theorem controlFlow_velposReq (x : In) (s : St) : (controlFlow x s).velposReq = s.velposReq := (controlFlow_frame x s).2.2.2.2.2.2.2.2.2.2.2.2.2.2.1
@[simp] theorem controlFlow_inhibited (x : In) (s : St) : (controlFlow x s).inhibited = s.inhibited := (controlFlow_frame x s).2.2.2.2.2.2.2.2.2.2.2.2.2.2.2.1
@[simp] theorem controlFlow_nonMagPrev (x : In) (s : St) : (controlFlow x s).nonMagPrev = s.nonMagPrev := (controlFlow_frame x s).2.2.2.2.2.2.2.2.2.2.2.2.2.2.2.2.1
@[simp] theorem controlFlow_yawObs (x : In) (s : St) : (controlFlow x s).yawObs = s.yawObs := (controlFlow_frame x s).2.2.2.2.2.2.2.2.2.2.2.2.2.2.2.2.2.1
@[simp] theorem controlFlow_biasObs (x : In) (s : St) : (controlFlow x s).biasObs = s.biasObs := (controlFlow_frame x s).2.2.2.2.2.2.2.2.2.2.2.2.2.2.2.2.2.2.1
@[simp] theorem controlFlow_nBad (x : In) (s : St) : (controlFlow x s).nBad = s.nBad := (controlFlow_frame x s).2.2.2.2.2.2.2.2.2.2.2.2.2.2.2.2.2.2.2.1
@[simp] theorem controlFlow_tMov (x : In) (s : St) : (controlFlow x s).tMov = s.tMov := (controlFlow_frame x s).2.2.2.2.2.2.2.2.2.2.2.2.2.2.2.2.2.2.2.2.1
@[simp] theorem controlFlow_tNotInh (x : In) (s : St) : (controlFlow x s).tNotInh = s.tNotInh := (controlFlow_frame x s).2.2.2.2.2.2.2.2.2.2.2.2.2.2.2.2.2.2.2.2.2.1
@[simp] theorem controlFlow_tYaw (x : In) (s : St) : (controlFlow x s).tYaw = s.tYaw := (controlFlow_frame x s).2.2.2.2.2.2.2.2.2.2.2.2.2.2.2.2.2.2.2.2.2.2.1
@[simp] theorem controlFlow_gpsYawFaulty (x : In) (s : St) : (controlFlow x s).gpsYawFaulty = s.gpsYawFaulty := (controlFlow_frame x s).2.2.2.2.2.2.2.2.2.2.2.2.2.2.2.2.2.2.2.2.2.2.2.1
@[simp] theorem controlFlow_doGsf (x : In) (s : St) : (controlFlow x s).doGsf = s.doGsf := (controlFlow_frame x s).2.2.2.2.2.2.2.2.2.2.2.2.2.2.2.2.2.2.2.2.2.2.2.2.1
@[simp] theorem controlFlow_gsfTime (x : In) (s : St) : (controlFlow x s).gsfTime = s.gsfTime := (controlFlow_frame x s).2.2.2.2.2.2.2.2.2.2.2.2.2.2.2.2.2.2.2.2.2.2.2.2.2.1
@[simp] theorem controlFlow_gsfCount (x : In) (s : St) : (controlFlow x s).gsfCount = s.gsfCount := (controlFlow_frame x s).2.2.2.2.2.2.2.2.2.2.2.2.2.2.2.2.2.2.2.2.2.2.2.2.2.2.1
@[simp] theorem controlFlow_tPos (x : In) (s : St) : (controlFlow x s).tPos = s.tPos := (controlFlow_frame x s).2.2.2.2.2.2.2.2.2.2.2.2.2.2.2.2.2.2.2.2.2.2.2.2.2.2.2.1
@[simp] theorem controlFlow_tDelpos (x : In) (s : St) : (controlFlow x s).tDelpos = s.tDelpos := (controlFlow_frame x s).2.2.2.2.2.2.2.2.2.2.2.2.2.2.2.2.2.2.2.2.2.2.2.2.2.2.2.2.1
@[simp] theorem controlFlow_tVel (x : In) (s : St) : (controlFlow x s).tVel = s.tVel := (controlFlow_frame x s).2.2.2.2.2.2.2.2.2.2.2.2.2.2.2.2.2.2.2.2.2.2.2.2.2.2.2.2.2.1
@[simp] theorem controlFlow_tBeta (x : In) (s : St) : (controlFlow x s).tBeta = s.tBeta := (controlFlow_frame x s).2.2.2.2.2.2.2.2.2.2.2.2.2.2.2.2.2.2.2.2.2.2.2.2.2.2.2.2.2.2.1
@[simp] theorem controlFlow_tArsp (x : In) (s : St) : (controlFlow x s).tArsp = s.tArsp := (controlFlow_frame x s).2.2.2.2.2.2.2.2.2.2.2.2.2.2.2.2.2.2.2.2.2.2.2.2.2.2.2.2.2.2.2.1
@[simp] theorem controlFlow_tFake (x : In) (s : St) : (controlFlow x s).tFake = s.tFake := (controlFlow_frame x s).2.2.2.2.2.2.2.2.2.2.2.2.2.2.2.2.2.2.2.2.2.2.2.2.2.2.2.2.2.2.2.2.1
@[simp] theorem controlFlow_tGpsYaw (x : In) (s : St) : (controlFlow x s).tGpsYaw = s.tGpsYaw := (controlFlow_frame x s).2.2.2.2.2.2.2.2.2.2.2.2.2.2.2.2.2.2.2.2.2.2.2.2.2.2.2.2.2.2.2.2.2.1
@[simp] theorem controlFlow_hposOdom (x : In) (s : St) : (controlFlow x s).hposOdom = s.hposOdom := (controlFlow_frame x s).2.2.2.2.2.2.2.2.2.2.2.2.2.2.2.2.2.2.2.2.2.2.2.2.2.2.2.2.2.2.2.2.2.2.1
@[simp] theorem controlFlow_synth (x : In) (s : St) : (controlFlow x s).synth = s.synth := (controlFlow_frame x s).2.2.2.2.2.2.2.2.2.2.2.2.2.2.2.2.2.2.2.2.2.2.2.2.2.2.2.2.2.2.2.2.2.2.2

theorem evStart_frame (x : In) (s : St) :
    (evStart x s).tilt = s.tilt ∧ (evStart x s).yawAlign = s.yawAlign ∧ (evStart x s).gps = s.gps ∧ (evStart x s).optFlow = s.optFlow ∧ (evStart x s).magHdg = s.magHdg ∧ (evStart x s).mag3D = s.mag3D ∧ (evStart x s).magDec = s.magDec ∧ (evStart x s).wind = s.wind ∧ (evStart x s).evYaw = s.evYaw ∧ (evStart x s).gpsYaw = s.gpsYaw ∧ (evStart x s).magDist = s.magDist ∧ (evStart x s).magFault = s.magFault ∧ (evStart x s).fuseAspd = s.fuseAspd ∧ (evStart x s).magAligned = s.magAligned ∧ (evStart x s).magYawReq = s.magYawReq ∧ (evStart x s).magInhReq = s.magInhReq ∧ (evStart x s).velposReq = s.velposReq ∧ (evStart x s).inhibited = s.inhibited ∧ (evStart x s).nonMagPrev = s.nonMagPrev ∧ (evStart x s).yawObs = s.yawObs ∧ (evStart x s).biasObs = s.biasObs ∧ (evStart x s).nBad = s.nBad ∧ (evStart x s).declCovReset = s.declCovReset ∧ (evStart x s).tAlign = s.tAlign ∧ (evStart x s).tMov = s.tMov ∧ (evStart x s).tNotInh = s.tNotInh ∧ (evStart x s).tYaw = s.tYaw ∧ (evStart x s).gpsYawFaulty = s.gpsYawFaulty ∧ (evStart x s).doGsf = s.doGsf ∧ (evStart x s).gsfTime = s.gsfTime ∧ (evStart x s).gsfCount = s.gsfCount ∧ (evStart x s).tPos = s.tPos ∧ (evStart x s).tDelpos = s.tDelpos ∧ (evStart x s).tVel = s.tVel ∧ (evStart x s).tOf = s.tOf ∧ (evStart x s).tBeta = s.tBeta ∧ (evStart x s).tArsp = s.tArsp ∧ (evStart x s).tFake = s.tFake ∧ (evStart x s).tGpsYaw = s.tGpsYaw ∧ (evStart x s).hposOdom = s.hposOdom ∧ (evStart x s).synth = s.synth ∧ (evStart x s).flowReady = s.flowReady ∧ (evStart x s).flowInh = s.flowInh ∧ (evStart x s).tGood = s.tGood ∧ (evStart x s).tBad = s.tBad := by
  unfold evStart; (try dsimp only); split_ifs <;> simp [*]
@[simp] theorem evStart_tilt (x : In) (s : St) : (evStart x s).tilt = s.tilt := (evStart_frame x s).1
@[simp] theorem evStart_yawAlign (x : In) (s : St) : (evStart x s).yawAlign = s.yawAlign := (evStart_frame x s).2.1
@[simp] theorem evStart_gps (x : In) (s : St) : (evStart x s).gps = s.gps := (evStart_frame x s).2.2.1
@[simp] theorem evStart_optFlow (x : In) (s : St) : (evStart x s).optFlow = s.optFlow := (evStart_frame x s).2.2.2.1
@[simp] theorem evStart_magHdg (x : In) (s : St) : (evStart x s).magHdg = s.magHdg := (evStart_frame x s).2.2.2.2.1
@[simp] theorem evStart_mag3D (x : In) (s : St) : (evStart x s).mag3D = s.mag3D := (evStart_frame x s).2.2.2.2.2.1
@[simp] theorem evStart_magDec (x : In) (s : St) : (evStart x s).magDec = s.magDec := (evStart_frame x s).2.2.2.2.2.2.1
@[simp] theorem evStart_wind (x : In) (s : St) : (evStart x s).wind = s.wind := (evStart_frame x s).2.2.2.2.2.2.2.1
@[simp] theorem evStart_evYaw (x : In) (s : St) : (evStart x s).evYaw = s.evYaw := (evStart_frame x s).2.2.2.2.2.2.2.2.1
@[simp] theorem evStart_gpsYaw (x : In) (s : St) : (evStart x s).gpsYaw = s.gpsYaw := (evStart_frame x s).2.2.2.2.2.2.2.2.2.1
@[simp] theorem evStart_magDist (x : In) (s : St) : (evStart x s).magDist = s.magDist := (evStart_frame x s).2.2.2.2.2.2.2.2.2.2.1
@[simp] theorem evStart_magFault (x : In) (s : St) : (evStart x s).magFault = s.magFault := (evStart_frame x s).2.2.2.2.2.2.2.2.2.2.2.1
@[simp] theorem evStart_fuseAspd (x : In) (s : St) : (evStart x s).fuseAspd = s.fuseAspd := (evStart_frame x s).2.2.2.2.2.2.2.2.2.2.2.2.1
@[simp] theorem evStart_magAligned (x : In) (s : St) : (evStart x s).magAligned = s.magAligned := (evStart_frame x s).2.2.2.2.2.2.2.2.2.2.2.2.2.1
@[simp] theorem evStart_magYawReq (x : In) (s : St) : (evStart x s).magYawReq = s.magYawReq := (evStart_frame x s).2.2.2.2.2.2.2.2.2.2.2.2.2.2.1
@[simp] theorem evStart_magInhReq (x : In) (s : St) : (evStart x s).magInhReq = s.magInhReq := (evStart_frame x s).2.2.2.2.2.2.2.2.2.2.2.2.2.2.2.1
@[simp] theorem evStart_velposReq (x : In) (s : St) : (evStart x s).velposReq = s.velposReq := (evStart_frame x s).2.2.2.2.2.2.2.2.2.2.2.2.2.2.2.2.1
@[simp] theorem evStart_inhibited (x : In) (s : St) : (evStart x s).inhibited = s.inhibited := (evStart_frame x s).2.2.2.2.2.2.2.2.2.2.2.2.2.2.2.2.2.1
@[simp] theorem evStart_nonMagPrev (x : In) (s : St) : (evStart x s).nonMagPrev = s.nonMagPrev := (evStart_frame x s).2.2.2.2.2.2.2.2.2.2.2.2.2.2.2.2.2.2.1
@[simp] theorem evStart_yawObs (x : In) (s : St) : (evStart x s).yawObs = s.yawObs := (evStart_frame x s).2.2.2.2.2.2.2.2.2.2.2.2.2.2.2.2.2.2.2.1
@[simp] theorem evStart_biasObs (x : In) (s : St) : (evStart x s).biasObs = s.biasObs := (evStart_frame x s).2.2.2.2.2.2.2.2.2.2.2.2.2.2.2.2.2.2.2.2.1
@[simp] theorem evStart_nBad (x : In) (s : St) : (evStart x s).nBad = s.nBad := (evStart_frame x s).2.2.2.2.2.2.2.2.2.2.2.2.2.2.2.2.2.2.2.2.2.1
@[simp] theorem evStart_declCovReset (x : In) (s : St) : (evStart x s).declCovReset = s.declCovReset := (evStart_frame x s).2.2.2.2.2.2.2.2.2.2.2.2.2.2.2.2.2.2.2.2.2.2.1
@[simp] theorem evStart_tAlign (x : In) (s : St) : (evStart x s).tAlign = s.tAlign := (evStart_frame x s).2.2.2.2.2.2.2.2.2.2.2.2.2.2.2.2.2.2.2.2.2.2.2.1
@[simp] theorem evStart_tMov (x : In) (s : St) : (evStart x s).tMov = s.tMov := (evStart_frame x s).2.2.2.2.2.2.2.2.2.2.2.2.2.2.2.2.2.2.2.2.2.2.2.2.1
@[simp] theorem evStart_tNotInh (x : In) (s : St) : (evStart x s).tNotInh = s.tNotInh := (evStart_frame x s).2.2.2.2.2.2.2.2.2.2.2.2.2.2.2.2.2.2.2.2.2.2.2.2.2.1
@[simp] theorem evStart_tYaw (x : In) (s : St) : (evStart x s).tYaw = s.tYaw := (evStart_frame x s).2.2.2.2.2.2.2.2.2.2.2.2.2.2.2.2.2.2.2.2.2.2.2.2.2.2.1
@[simp] theorem evStart_gpsYawFaulty (x : In) (s : St) : (evStart x s).gpsYawFaulty = s.gpsYawFaulty := (evStart_frame x s).2.2.2.2.2.2.2.2.2.2.2.2.2.2.2.2.2.2.2.2.2.2.2.2.2.2.2.1
@[simp] theorem evStart_doGsf (x : In) (s : St) : (evStart x s).doGsf = s.doGsf := (evStart_frame x s).2.2.2.2.2.2.2.2.2.2.2.2.2.2.2.2.2.2.2.2.2.2.2.2.2.2.2.2.1
@[simp] theorem evStart_gsfTime (x : In) (s : St) : (evStart x s).gsfTime = s.gsfTime := (evStart_frame x s).2.2.2.2.2.2.2.2.2.2.2.2.2.2.2.2.2.2.2.2.2.2.2.2.2.2.2.2.2.1
@[simp] theorem evStart_gsfCount (x : In) (s : St) : (evStart x s).gsfCount = s.gsfCount := (evStart_frame x s).2.2.2.2.2.2.2.2.2.2.2.2.2.2.2.2.2.2.2.2.2.2.2.2.2.2.2.2.2.2.1
@[simp] theorem evStart_tPos (x : In) (s : St) : (evStart x s).tPos = s.tPos := (evStart_frame x s).2.2.2.2.2.2.2.2.2.2.2.2.2.2.2.2.2.2.2.2.2.2.2.2.2.2.2.2.2.2.2.1
@[simp] theorem evStart_tDelpos (x : In) (s : St) : (evStart x s).tDelpos = s.tDelpos := (evStart_frame x s).2.2.2.2.2.2.2.2.2.2.2.2.2.2.2.2.2.2.2.2.2.2.2.2.2.2.2.2.2.2.2.2.1
@[simp] theorem evStart_tVel (x : In) (s : St) : (evStart x s).tVel = s.tVel := (evStart_frame x s).2.2.2.2.2.2.2.2.2.2.2.2.2.2.2.2.2.2.2.2.2.2.2.2.2.2.2.2.2.2.2.2.2.1
@[simp] theorem evStart_tOf (x : In) (s : St) : (evStart x s).tOf = s.tOf := (evStart_frame x s).2.2.2.2.2.2.2.2.2.2.2.2.2.2.2.2.2.2.2.2.2.2.2.2.2.2.2.2.2.2.2.2.2.2.1
@[simp] theorem evStart_tBeta (x : In) (s : St) : (evStart x s).tBeta = s.tBeta := (evStart_frame x s).2.2.2.2.2.2.2.2.2.2.2.2.2.2.2.2.2.2.2.2.2.2.2.2.2.2.2.2.2.2.2.2.2.2.2.1
@[simp] theorem evStart_tArsp (x : In) (s : St) : (evStart x s).tArsp = s.tArsp := (evStart_frame x s).2.2.2.2.2.2.2.2.2.2.2.2.2.2.2.2.2.2.2.2.2.2.2.2.2.2.2.2.2.2.2.2.2.2.2.2.1
@[simp] theorem evStart_tFake (x : In) (s : St) : (evStart x s).tFake = s.tFake := (evStart_frame x s).2.2.2.2.2.2.2.2.2.2.2.2.2.2.2.2.2.2.2.2.2.2.2.2.2.2.2.2.2.2.2.2.2.2.2.2.2.1
@[simp] theorem evStart_tGpsYaw (x : In) (s : St) : (evStart x s).tGpsYaw = s.tGpsYaw := (evStart_frame x s).2.2.2.2.2.2.2.2.2.2.2.2.2.2.2.2.2.2.2.2.2.2.2.2.2.2.2.2.2.2.2.2.2.2.2.2.2.2.1
@[simp] theorem evStart_hposOdom (x : In) (s : St) : (evStart x s).hposOdom = s.hposOdom := (evStart_frame x s).2.2.2.2.2.2.2.2.2.2.2.2.2.2.2.2.2.2.2.2.2.2.2.2.2.2.2.2.2.2.2.2.2.2.2.2.2.2.2.1
@[simp] theorem evStart_synth (x : In) (s : St) : (evStart x s).synth = s.synth := (evStart_frame x s).2.2.2.2.2.2.2.2.2.2.2.2.2.2.2.2.2.2.2.2.2.2.2.2.2.2.2.2.2.2.2.2.2.2.2.2.2.2.2.2.1
@[simp] theorem evStart_flowReady (x : In) (s : St) : (evStart x s).flowReady = s.flowReady := (evStart_frame x s).2.2.2.2.2.2.2.2.2.2.2.2.2.2.2.2.2.2.2.2.2.2.2.2.2.2.2.2.2.2.2.2.2.2.2.2.2.2.2.2.2.1
@[simp] theorem evStart_flowInh (x : In) (s : St) : (evStart x s).flowInh = s.flowInh := (evStart_frame x s).2.2.2.2.2.2.2.2.2.2.2.2.2.2.2.2.2.2.2.2.2.2.2.2.2.2.2.2.2.2.2.2.2.2.2.2.2.2.2.2.2.2.1
@[simp] theorem evStart_tGood (x : In) (s : St) : (evStart x s).tGood = s.tGood := (evStart_frame x s).2.2.2.2.2.2.2.2.2.2.2.2.2.2.2.2.2.2.2.2.2.2.2.2.2.2.2.2.2.2.2.2.2.2.2.2.2.2.2.2.2.2.2.1
@[simp] theorem evStart_tBad (x : In) (s : St) : (evStart x s).tBad = s.tBad := (evStart_frame x s).2.2.2.2.2.2.2.2.2.2.2.2.2.2.2.2.2.2.2.2.2.2.2.2.2.2.2.2.2.2.2.2.2.2.2.2.2.2.2.2.2.2.2.2

theorem startEvYaw_frame (s : St) :
    (startEvYaw s).tilt = s.tilt ∧ (startEvYaw s).gps = s.gps ∧ (startEvYaw s).optFlow = s.optFlow ∧ (startEvYaw s).wind = s.wind ∧ (startEvYaw s).evPos = s.evPos ∧ (startEvYaw s).evVel = s.evVel ∧ (startEvYaw s).gpsYaw = s.gpsYaw ∧ (startEvYaw s).magDist = s.magDist ∧ (startEvYaw s).magFault = s.magFault ∧ (startEvYaw s).fuseAspd = s.fuseAspd ∧ (startEvYaw s).magAligned = s.magAligned ∧ (startEvYaw s).magYawReq = s.magYawReq ∧ (startEvYaw s).magInhReq = s.magInhReq ∧ (startEvYaw s).velposReq = s.velposReq ∧ (startEvYaw s).inhibited = s.inhibited ∧ (startEvYaw s).nonMagPrev = s.nonMagPrev ∧ (startEvYaw s).yawObs = s.yawObs ∧ (startEvYaw s).biasObs = s.biasObs ∧ (startEvYaw s).nBad = s.nBad ∧ (startEvYaw s).declCovReset = s.declCovReset ∧ (startEvYaw s).tAlign = s.tAlign ∧ (startEvYaw s).tMov = s.tMov ∧ (startEvYaw s).tNotInh = s.tNotInh ∧ (startEvYaw s).tYaw = s.tYaw ∧ (startEvYaw s).gpsYawFaulty = s.gpsYawFaulty ∧ (startEvYaw s).doGsf = s.doGsf ∧ (startEvYaw s).gsfTime = s.gsfTime ∧ (startEvYaw s).gsfCount = s.gsfCount ∧ (startEvYaw s).tPos = s.tPos ∧ (startEvYaw s).tDelpos = s.tDelpos ∧ (startEvYaw s).tVel = s.tVel ∧ (startEvYaw s).tOf = s.tOf ∧ (startEvYaw s).tBeta = s.tBeta ∧ (startEvYaw s).tArsp = s.tArsp ∧ (startEvYaw s).tFake = s.tFake ∧ (startEvYaw s).tGpsYaw = s.tGpsYaw ∧ (startEvYaw s).hposPrev = s.hposPrev ∧ (startEvYaw s).hposOdom = s.hposOdom ∧ (startEvYaw s).synth = s.synth ∧ (startEvYaw s).flowReady = s.flowReady ∧ (startEvYaw s).flowInh = s.flowInh ∧ (startEvYaw s).tGood = s.tGood ∧ (startEvYaw s).tBad = s.tBad := by
  unfold startEvYaw; simp
@[simp] theorem startEvYaw_tilt (s : St) : (startEvYaw s).tilt = s.tilt := (startEvYaw_frame s).1
@[simp] theorem startEvYaw_gps (s : St) : (startEvYaw s).gps = s.gps := (startEvYaw_frame s).2.1
@[simp] theorem startEvYaw_optFlow (s : St) : (startEvYaw s).optFlow = s.optFlow := (startEvYaw_frame s).2.2.1
@[simp] theorem startEvYaw_wind (s : St) : (startEvYaw s).wind = s.wind := (startEvYaw_frame s).2.2.2.1
@[simp] theorem startEvYaw_evPos (s : St) : (startEvYaw s).evPos = s.evPos := (startEvYaw_frame s).2.2.2.2.1
@[simp] theorem startEvYaw_evVel (s : St) : (startEvYaw s).evVel = s.evVel := (startEvYaw_frame s).2.2.2.2.2.1
@[simp] theorem startEvYaw_gpsYaw (s : St) : (startEvYaw s).gpsYaw = s.gpsYaw := (startEvYaw_frame s).2.2.2.2.2.2.1
@[simp] theorem startEvYaw_magDist (s : St) : (startEvYaw s).magDist = s.magDist := (startEvYaw_frame s).2.2.2.2.2.2.2.1
@[simp] theorem startEvYaw_magFault (s : St) : (startEvYaw s).magFault = s.magFault := (startEvYaw_frame s).2.2.2.2.2.2.2.2.1
@[simp] theorem startEvYaw_fuseAspd (s : St) : (startEvYaw s).fuseAspd = s.fuseAspd := (startEvYaw_frame s).2.2.2.2.2.2.2.2.2.1
@[simp] theorem startEvYaw_magAligned (s : St) : (startEvYaw s).magAligned = s.magAligned := (startEvYaw_frame s).2.2.2.2.2.2.2.2.2.2.1
@[simp] theorem startEvYaw_magYawReq (s : St) : (startEvYaw s).magYawReq = s.magYawReq := (startEvYaw_frame s).2.2.2.2.2.2.2.2.2.2.2.1
@[simp] theorem startEvYaw_magInhReq (s : St) : (startEvYaw s).magInhReq = s.magInhReq := (startEvYaw_frame s).2.2.2.2.2.2.2.2.2.2.2.2.1
@[simp] theorem startEvYaw_velposReq (s : St) : (startEvYaw s).velposReq = s.velposReq := (startEvYaw_frame s).2.2.2.2.2.2.2.2.2.2.2.2.2.1
@[simp] theorem startEvYaw_inhibited (s : St) : (startEvYaw s).inhibited = s.inhibited := (startEvYaw_frame s).2.2.2.2.2.2.2.2.2.2.2.2.2.2.1
@[simp] theorem startEvYaw_nonMagPrev (s : St) : (startEvYaw s).nonMagPrev = s.nonMagPrev := (startEvYaw_frame s).2.2.2.2.2.2.2.2.2.2.2.2.2.2.2.1
@[simp] theorem startEvYaw_yawObs (s : St) : (startEvYaw s).yawObs = s.yawObs := (startEvYaw_frame s).2.2.2.2.2.2.2.2.2.2.2.2.2.2.2.2.1
@[simp] theorem startEvYaw_biasObs (s : St) : (startEvYaw s).biasObs = s.biasObs := (startEvYaw_frame s).2.2.2.2.2.2.2.2.2.2.2.2.2.2.2.2.2.1
@[simp] theorem startEvYaw_nBad (s : St) : (startEvYaw s).nBad = s.nBad := (startEvYaw_frame s).2.2.2.2.2.2.2.2.2.2.2.2.2.2.2.2.2.2.1
@[simp] theorem startEvYaw_declCovReset (s : St) : (startEvYaw s).declCovReset = s.declCovReset := (startEvYaw_frame s).2.2.2.2.2.2.2.2.2.2.2.2.2.2.2.2.2.2.2.1
@[simp] theorem startEvYaw_tAlign (s : St) : (startEvYaw s).tAlign = s.tAlign := (startEvYaw_frame s).2.2.2.2.2.2.2.2.2.2.2.2.2.2.2.2.2.2.2.2.1
@[simp] theorem startEvYaw_tMov (s : St) : (startEvYaw s).tMov = s.tMov := (startEvYaw_frame s).2.2.2.2.2.2.2.2.2.2.2.2.2.2.2.2.2.2.2.2.2.1
@[simp] theorem startEvYaw_tNotInh (s : St) : (startEvYaw s).tNotInh = s.tNotInh := (startEvYaw_frame s).2.2.2.2.2.2.2.2.2.2.2.2.2.2.2.2.2.2.2.2.2.2.1
@[simp] theorem startEvYaw_tYaw (s : St) : (startEvYaw s).tYaw = s.tYaw := (startEvYaw_frame s).2.2.2.2.2.2.2.2.2.2.2.2.2.2.2.2.2.2.2.2.2.2.2.1
@[simp] theorem startEvYaw_gpsYawFaulty (s : St) : (startEvYaw s).gpsYawFaulty = s.gpsYawFaulty := (startEvYaw_frame s).2.2.2.2.2.2.2.2.2.2.2.2.2.2.2.2.2.2.2.2.2.2.2.2.1
@[simp] theorem startEvYaw_doGsf (s : St) : (startEvYaw s).doGsf = s.doGsf := (startEvYaw_frame s).2.2.2.2.2.2.2.2.2.2.2.2.2.2.2.2.2.2.2.2.2.2.2.2.2.1
@[simp] theorem startEvYaw_gsfTime (s : St) : (startEvYaw s).gsfTime = s.gsfTime := (startEvYaw_frame s).2.2.2.2.2.2.2.2.2.2.2.2.2.2.2.2.2.2.2.2.2.2.2.2.2.2.1
@[simp] theorem startEvYaw_gsfCount (s : St) : (startEvYaw s).gsfCount = s.gsfCount := (startEvYaw_frame s).2.2.2.2.2.2.2.2.2.2.2.2.2.2.2.2.2.2.2.2.2.2.2.2.2.2.2.1
@[simp] theorem startEvYaw_tPos (s : St) : (startEvYaw s).tPos = s.tPos := (startEvYaw_frame s).2.2.2.2.2.2.2.2.2.2.2.2.2.2.2.2.2.2.2.2.2.2.2.2.2.2.2.2.1
@[simp] theorem startEvYaw_tDelpos (s : St) : (startEvYaw s).tDelpos = s.tDelpos := (startEvYaw_frame s).2.2.2.2.2.2.2.2.2.2.2.2.2.2.2.2.2.2.2.2.2.2.2.2.2.2.2.2.2.1
@[simp] theorem startEvYaw_tVel (s : St) : (startEvYaw s).tVel = s.tVel := (startEvYaw_frame s).2.2.2.2.2.2.2.2.2.2.2.2.2.2.2.2.2.2.2.2.2.2.2.2.2.2.2.2.2.2.1
@[simp] theorem startEvYaw_tOf (s : St) : (startEvYaw s).tOf = s.tOf := (startEvYaw_frame s).2.2.2.2.2.2.2.2.2.2.2.2.2.2.2.2.2.2.2.2.2.2.2.2.2.2.2.2.2.2.2.1
@[simp] theorem startEvYaw_tBeta (s : St) : (startEvYaw s).tBeta = s.tBeta := (startEvYaw_frame s).2.2.2.2.2.2.2.2.2.2.2.2.2.2.2.2.2.2.2.2.2.2.2.2.2.2.2.2.2.2.2.2.1
@[simp] theorem startEvYaw_tArsp (s : St) : (startEvYaw s).tArsp = s.tArsp := (startEvYaw_frame s).2.2.2.2.2.2.2.2.2.2.2.2.2.2.2.2.2.2.2.2.2.2.2.2.2.2.2.2.2.2.2.2.2.1
@[simp] theorem startEvYaw_tFake (s : St) : (startEvYaw s).tFake = s.tFake := (startEvYaw_frame s).2.2.2.2.2.2.2.2.2.2.2.2.2.2.2.2.2.2.2.2.2.2.2.2.2.2.2.2.2.2.2.2.2.2.1
@[simp] theorem startEvYaw_tGpsYaw (s : St) : (startEvYaw s).tGpsYaw = s.tGpsYaw := (startEvYaw_frame s).2.2.2.2.2.2.2.2.2.2.2.2.2.2.2.2.2.2.2.2.2.2.2.2.2.2.2.2.2.2.2.2.2.2.2.1
@[simp] theorem startEvYaw_hposPrev (s : St) : (startEvYaw s).hposPrev = s.hposPrev := (startEvYaw_frame s).2.2.2.2.2.2.2.2.2.2.2.2.2.2.2.2.2.2.2.2.2.2.2.2.2.2.2.2.2.2.2.2.2.2.2.2.1
@[simp] theorem startEvYaw_hposOdom (s : St) : (startEvYaw s).hposOdom = s.hposOdom := (startEvYaw_frame s).2.2.2.2.2.2.2.2.2.2.2.2.2.2.2.2.2.2.2.2.2.2.2.2.2.2.2.2.2.2.2.2.2.2.2.2.2.1
@[simp] theorem startEvYaw_synth (s : St) : (startEvYaw s).synth = s.synth := (startEvYaw_frame s).2.2.2.2.2.2.2.2.2.2.2.2.2.2.2.2.2.2.2.2.2.2.2.2.2.2.2.2.2.2.2.2.2.2.2.2.2.2.1
@[simp] theorem startEvYaw_flowReady (s : St) : (startEvYaw s).flowReady = s.flowReady := (startEvYaw_frame s).2.2.2.2.2.2.2.2.2.2.2.2.2.2.2.2.2.2.2.2.2.2.2.2.2.2.2.2.2.2.2.2.2.2.2.2.2.2.2.1
@[simp] theorem startEvYaw_flowInh (s : St) : (startEvYaw s).flowInh = s.flowInh := (startEvYaw_frame s).2.2.2.2.2.2.2.2.2.2.2.2.2.2.2.2.2.2.2.2.2.2.2.2.2.2.2.2.2.2.2.2.2.2.2.2.2.2.2.2.1
@[simp] theorem startEvYaw_tGood (s : St) : (startEvYaw s).tGood = s.tGood := (startEvYaw_frame s).2.2.2.2.2.2.2.2.2.2.2.2.2.2.2.2.2.2.2.2.2.2.2.2.2.2.2.2.2.2.2.2.2.2.2.2.2.2.2.2.2.1
@[simp] theorem startEvYaw_tBad (s : St) : (startEvYaw s).tBad = s.tBad := (startEvYaw_frame s).2.2.2.2.2.2.2.2.2.2.2.2.2.2.2.2.2.2.2.2.2.2.2.2.2.2.2.2.2.2.2.2.2.2.2.2.2.2.2.2.2.2

theorem evYawStart_frame (x : In) (s : St) :
    (evYawStart x s).tilt = s.tilt ∧ (evYawStart x s).gps = s.gps ∧ (evYawStart x s).optFlow = s.optFlow ∧ (evYawStart x s).wind = s.wind ∧ (evYawStart x s).evPos = s.evPos ∧ (evYawStart x s).evVel = s.evVel ∧ (evYawStart x s).gpsYaw = s.gpsYaw ∧ (evYawStart x s).magDist = s.magDist ∧ (evYawStart x s).magFault = s.magFault ∧ (evYawStart x s).fuseAspd = s.fuseAspd ∧ (evYawStart x s).magAligned = s.magAligned ∧ (evYawStart x s).magYawReq = s.magYawReq ∧ (evYawStart x s).magInhReq = s.magInhReq ∧ (evYawStart x s).velposReq = s.velposReq ∧ (evYawStart x s).inhibited = s.inhibited ∧ (evYawStart x s).nonMagPrev = s.nonMagPrev ∧ (evYawStart x s).yawObs = s.yawObs ∧ (evYawStart x s).biasObs = s.biasObs ∧ (evYawStart x s).nBad = s.nBad ∧ (evYawStart x s).declCovReset = s.declCovReset ∧ (evYawStart x s).tAlign = s.tAlign ∧ (evYawStart x s).tMov = s.tMov ∧ (evYawStart x s).tNotInh = s.tNotInh ∧ (evYawStart x s).tYaw = s.tYaw ∧ (evYawStart x s).gpsYawFaulty = s.gpsYawFaulty ∧ (evYawStart x s).doGsf = s.doGsf ∧ (evYawStart x s).gsfTime = s.gsfTime ∧ (evYawStart x s).gsfCount = s.gsfCount ∧ (evYawStart x s).tPos = s.tPos ∧ (evYawStart x s).tDelpos = s.tDelpos ∧ (evYawStart x s).tVel = s.tVel ∧ (evYawStart x s).tOf = s.tOf ∧ (evYawStart x s).tBeta = s.tBeta ∧ (evYawStart x s).tArsp = s.tArsp ∧ (evYawStart x s).tFake = s.tFake ∧ (evYawStart x s).tGpsYaw = s.tGpsYaw ∧ (evYawStart x s).hposPrev = s.hposPrev ∧ (evYawStart x s).hposOdom = s.hposOdom ∧ (evYawStart x s).synth = s.synth ∧ (evYawStart x s).flowReady = s.flowReady ∧ (evYawStart x s).flowInh = s.flowInh ∧ (evYawStart x s).tGood = s.tGood ∧ (evYawStart x s).tBad = s.tBad := by
  unfold evYawStart; (try dsimp only); split_ifs <;> simp [*]
@[simp] theorem evYawStart_tilt (x : In) (s : St) : (evYawStart x s).tilt = s.tilt := (evYawStart_frame x s).1
@[simp] theorem evYawStart_gps (x : In) (s : St) : (evYawStart x s).gps = s.gps := (evYawStart_frame x s).2.1
@[simp] theorem evYawStart_optFlow (x : In) (s : St) : (evYawStart x s).optFlow = s.optFlow := (evYawStart_frame x s).2.2.1
@[simp] theorem evYawStart_wind (x : In) (s : St) : (evYawStart x s).wind = s.wind := (evYawStart_frame x s).2.2.2.1
@[simp] theorem evYawStart_evPos (x : In) (s : St) : (evYawStart x s).evPos = s.evPos := (evYawStart_frame x s).2.2.2.2.1
@[simp] theorem evYawStart_evVel (x : In) (s : St) : (evYawStart x s).evVel = s.evVel := (evYawStart_frame x s).2.2.2.2.2.1
@[simp] theorem evYawStart_gpsYaw (x : In) (s : St) : (evYawStart x s).gpsYaw = s.gpsYaw := (evYawStart_frame x s).2.2.2.2.2.2.1
@[simp] theorem evYawStart_magDist (x : In) (s : St) : (evYawStart x s).magDist = s.magDist := (evYawStart_frame x s).2.2.2.2.2.2.2.1
@[simp] theorem evYawStart_magFault (x : In) (s : St) : (evYawStart x s).magFault = s.magFault := (evYawStart_frame x s).2.2.2.2.2.2.2.2.1
@[simp] theorem evYawStart_fuseAspd (x : In) (s : St) : (evYawStart x s).fuseAspd = s.fuseAspd := (evYawStart_frame x s).2.2.2.2.2.2.2.2.2.1
@[simp] theorem evYawStart_magAligned (x : In) (s : St) : (evYawStart x s).magAligned = s.magAligned := (evYawStart_frame x s).2.2.2.2.2.2.2.2.2.2.1
@[simp] theorem evYawStart_magYawReq (x : In) (s : St) : (evYawStart x s).magYawReq = s.magYawReq := (evYawStart_frame x s).2.2.2.2.2.2.2.2.2.2.2.1
@[simp] theorem evYawStart_magInhReq (x : In) (s : St) : (evYawStart x s).magInhReq = s.magInhReq := (evYawStart_frame x s).2.2.2.2.2.2.2.2.2.2.2.2.1
@[simp] theorem evYawStart_velposReq (x : In) (s : St) : (evYawStart x s).velposReq = s.velposReq := (evYawStart_frame x s).2.2.2.2.2.2.2.2.2.2.2.2.2.1
@[simp] theorem evYawStart_inhibited (x : In) (s : St) : (evYawStart x s).inhibited = s.inhibited := (evYawStart_frame x s).2.2.2.2.2.2.2.2.2.2.2.2.2.2.1
@[simp] theorem evYawStart_nonMagPrev (x : In) (s : St) : (evYawStart x s).nonMagPrev = s.nonMagPrev := (evYawStart_frame x s).2.2.2.2.2.2.2.2.2.2.2.2.2.2.2.1
@[simp] theorem evYawStart_yawObs (x : In) (s : St) : (evYawStart x s).yawObs = s.yawObs := (evYawStart_frame x s).2.2.2.2.2.2.2.2.2.2.2.2.2.2.2.2.1
@[simp] theorem evYawStart_biasObs (x : In) (s : St) : (evYawStart x s).biasObs = s.biasObs := (evYawStart_frame x s).2.2.2.2.2.2.2.2.2.2.2.2.2.2.2.2.2.1
@[simp] theorem evYawStart_nBad (x : In) (s : St) : (evYawStart x s).nBad = s.nBad := (evYawStart_frame x s).2.2.2.2.2.2.2.2.2.2.2.2.2.2.2.2.2.2.1
@[simp] theorem evYawStart_declCovReset (x : In) (s : St) : (evYawStart x s).declCovReset = s.declCovReset := (evYawStart_frame x s).2.2.2.2.2.2.2.2.2.2.2.2.2.2.2.2.2.2.2.1
@[simp] theorem evYawStart_tAlign (x : In) (s : St) : (evYawStart x s).tAlign = s.tAlign := (evYawStart_frame x s).2.2.2.2.2.2.2.2.2.2.2.2.2.2.2.2.2.2.2.2.1
@[simp] theorem evYawStart_tMov (x : In) (s : St) : (evYawStart x s).tMov = s.tMov := (evYawStart_frame x s).2.2.2.2.2.2.2.2.2.2.2.2.2.2.2.2.2.2.2.2.2.1
@[simp] theorem evYawStart_tNotInh (x : In) (s : St) : (evYawStart x s).tNotInh = s.tNotInh := (evYawStart_frame x s).2.2.2.2.2.2.2.2.2.2.2.2.2.2.2.2.2.2.2.2.2.2.1
@[simp] theorem evYawStart_tYaw (x : In) (s : St) : (evYawStart x s).tYaw = s.tYaw := (evYawStart_frame x s).2.2.2.2.2.2.2.2.2.2.2.2.2.2.2.2.2.2.2.2.2.2.2.1
@[simp] theorem evYawStart_gpsYawFaulty (x : In) (s : St) : (evYawStart x s).gpsYawFaulty = s.gpsYawFaulty := (evYawStart_frame x s).2.2.2.2.2.2.2.2.2.2.2.2.2.2.2.2.2.2.2.2.2.2.2.2.1
@[simp] theorem evYawStart_doGsf (x : In) (s : St) : (evYawStart x s).doGsf = s.doGsf := (evYawStart_frame x s).2.2.2.2.2.2.2.2.2.2.2.2.2.2.2.2.2.2.2.2.2.2.2.2.2.1
@[simp] theorem evYawStart_gsfTime (x : In) (s : St) : (evYawStart x s).gsfTime = s.gsfTime := (evYawStart_frame x s).2.2.2.2.2.2.2.2.2.2.2.2.2.2.2.2.2.2.2.2.2.2.2.2.2.2.1
@[simp] theorem evYawStart_gsfCount (x : In) (s : St) : (evYawStart x s).gsfCount = s.gsfCount := (evYawStart_frame x s).2.2.2.2.2.2.2.2.2.2.2.2.2.2.2.2.2.2.2.2.2.2.2.2.2.2.2.1
@[simp] theorem evYawStart_tPos (x : In) (s : St) : (evYawStart x s).tPos = s.tPos := (evYawStart_frame x s).2.2.2.2.2.2.2.2.2.2.2.2.2.2.2.2.2.2.2.2.2.2.2.2.2.2.2.2.1
@[simp] theorem evYawStart_tDelpos (x : In) (s : St) : (evYawStart x s).tDelpos = s.tDelpos := (evYawStart_frame x s).2.2.2.2.2.2.2.2.2.2.2.2.2.2.2.2.2.2.2.2.2.2.2.2.2.2.2.2.2.1
@[simp] theorem evYawStart_tVel (x : In) (s : St) : (evYawStart x s).tVel = s.tVel := (evYawStart_frame x s).2.2.2.2.2.2.2.2.2.2.2.2.2.2.2.2.2.2.2.2.2.2.2.2.2.2.2.2.2.2.1
@[simp] theorem evYawStart_tOf (x : In) (s : St) : (evYawStart x s).tOf = s.tOf := (evYawStart_frame x s).2.2.2.2.2.2.2.2.2.2.2.2.2.2.2.2.2.2.2.2.2.2.2.2.2.2.2.2.2.2.2.1
@[simp] theorem evYawStart_tBeta (x : In) (s : St) : (evYawStart x s).tBeta = s.tBeta := (evYawStart_frame x s).2.2.2.2.2.2.2.2.2.2.2.2.2.2.2.2.2.2.2.2.2.2.2.2.2.2.2.2.2.2.2.2.1
@[simp] theorem evYawStart_tArsp (x : In) (s : St) : (evYawStart x s).tArsp = s.tArsp := (evYawStart_frame x s).2.2.2.2.2.2.2.2.2.2.2.2.2.2.2.2.2.2.2.2.2.2.2.2.2.2.2.2.2.2.2.2.2.1
@[simp] theorem evYawStart_tFake (x : In) (s : St) : (evYawStart x s).tFake = s.tFake := (evYawStart_frame x s).2.2.2.2.2.2.2.2.2.2.2.2.2.2.2.2.2.2.2.2.2.2.2.2.2.2.2.2.2.2.2.2.2.2.1
@[simp] theorem evYawStart_tGpsYaw (x : In) (s : St) : (evYawStart x s).tGpsYaw = s.tGpsYaw := (evYawStart_frame x s).2.2.2.2.2.2.2.2.2.2.2.2.2.2.2.2.2.2.2.2.2.2.2.2.2.2.2.2.2.2.2.2.2.2.2.1
@[simp] theorem evYawStart_hposPrev (x : In) (s : St) : (evYawStart x s).hposPrev = s.hposPrev := (evYawStart_frame x s).2.2.2.2.2.2.2.2.2.2.2.2.2.2.2.2.2.2.2.2.2.2.2.2.2.2.2.2.2.2.2.2.2.2.2.2.1
@[simp] theorem evYawStart_hposOdom (x : In) (s : St) : (evYawStart x s).hposOdom = s.hposOdom := (evYawStart_frame x s).2.2.2.2.2.2.2.2.2.2.2.2.2.2.2.2.2.2.2.2.2.2.2.2.2.2.2.2.2.2.2.2.2.2.2.2.2.1
@[simp] theorem evYawStart_synth (x : In) (s : St) : (evYawStart x s).synth = s.synth := (evYawStart_frame x s).2.2.2.2.2.2.2.2.2.2.2.2.2.2.2.2.2.2.2.2.2.2.2.2.2.2.2.2.2.2.2.2.2.2.2.2.2.2.1
@[simp] theorem evYawStart_flowReady (x : In) (s : St) : (evYawStart x s).flowReady = s.flowReady := (evYawStart_frame x s).2.2.2.2.2.2.2.2.2.2.2.2.2.2.2.2.2.2.2.2.2.2.2.2.2.2.2.2.2.2.2.2.2.2.2.2.2.2.2.1
@[simp] theorem evYawStart_flowInh (x : In) (s : St) : (evYawStart x s).flowInh = s.flowInh := (evYawStart_frame x s).2.2.2.2.2.2.2.2.2.2.2.2.2.2.2.2.2.2.2.2.2.2.2.2.2.2.2.2.2.2.2.2.2.2.2.2.2.2.2.2.1
@[simp] theorem evYawStart_tGood (x : In) (s : St) : (evYawStart x s).tGood = s.tGood := (evYawStart_frame x s).2.2.2.2.2.2.2.2.2.2.2.2.2.2.2.2.2.2.2.2.2.2.2.2.2.2.2.2.2.2.2.2.2.2.2.2.2.2.2.2.2.1
@[simp] theorem evYawStart_tBad (x : In) (s : St) : (evYawStart x s).tBad = s.tBad := (evYawStart_frame x s).2.2.2.2.2.2.2.2.2.2.2.2.2.2.2.2.2.2.2.2.2.2.2.2.2.2.2.2.2.2.2.2.2.2.2.2.2.2.2.2.2.2

theorem evPosUse_frame (x : In) (s : St) :
    (evPosUse x s).tilt = s.tilt ∧ (evPosUse x s).yawAlign = s.yawAlign ∧ (evPosUse x s).gps = s.gps ∧ (evPosUse x s).optFlow = s.optFlow ∧ (evPosUse x s).magHdg = s.magHdg ∧ (evPosUse x s).mag3D = s.mag3D ∧ (evPosUse x s).magDec = s.magDec ∧ (evPosUse x s).wind = s.wind ∧ (evPosUse x s).evPos = s.evPos ∧ (evPosUse x s).evVel = s.evVel ∧ (evPosUse x s).evYaw = s.evYaw ∧ (evPosUse x s).gpsYaw = s.gpsYaw ∧ (evPosUse x s).magDist = s.magDist ∧ (evPosUse x s).magFault = s.magFault ∧ (evPosUse x s).fuseAspd = s.fuseAspd ∧ (evPosUse x s).magAligned = s.magAligned ∧ (evPosUse x s).magYawReq = s.magYawReq ∧ (evPosUse x s).magInhReq = s.magInhReq ∧ (evPosUse x s).velposReq = s.velposReq ∧ (evPosUse x s).inhibited = s.inhibited ∧ (evPosUse x s).nonMagPrev = s.nonMagPrev ∧ (evPosUse x s).yawObs = s.yawObs ∧ (evPosUse x s).biasObs = s.biasObs ∧ (evPosUse x s).nBad = s.nBad ∧ (evPosUse x s).declCovReset = s.declCovReset ∧ (evPosUse x s).tAlign = s.tAlign ∧ (evPosUse x s).tMov = s.tMov ∧ (evPosUse x s).tNotInh = s.tNotInh ∧ (evPosUse x s).tYaw = s.tYaw ∧ (evPosUse x s).gpsYawFaulty = s.gpsYawFaulty ∧ (evPosUse x s).doGsf = s.doGsf ∧ (evPosUse x s).gsfTime = s.gsfTime ∧ (evPosUse x s).gsfCount = s.gsfCount ∧ (evPosUse x s).tVel = s.tVel ∧ (evPosUse x s).tOf = s.tOf ∧ (evPosUse x s).tBeta = s.tBeta ∧ (evPosUse x s).tArsp = s.tArsp ∧ (evPosUse x s).tFake = s.tFake ∧ (evPosUse x s).tGpsYaw = s.tGpsYaw ∧ (evPosUse x s).synth = s.synth ∧ (evPosUse x s).flowReady = s.flowReady ∧ (evPosUse x s).flowInh = s.flowInh ∧ (evPosUse x s).tGood = s.tGood ∧ (evPosUse x s).tBad = s.tBad := by
  unfold evPosUse; (try dsimp only); split_ifs <;> simp [*]
@[simp] theorem evPosUse_tilt (x : In) (s : St) : (evPosUse x s).tilt = s.tilt := (evPosUse_frame x s).1
@[simp] theorem evPosUse_yawAlign (x : In) (s : St) : (evPosUse x s).yawAlign = s.yawAlign := (evPosUse_frame x s).2.1
@[simp] theorem evPosUse_gps (x : In) (s : St) : (evPosUse x s).gps = s.gps := (evPosUse_frame x s).2.2.1
@[simp] theorem evPosUse_optFlow (x : In) (s : St) : (evPosUse x s).optFlow = s.optFlow := (evPosUse_frame x s).2.2.2.1
@[simp] theorem evPosUse_magHdg (x : In) (s : St) : (evPosUse x s).magHdg = s.magHdg := (evPosUse_frame x s).2.2.2.2.1
@[simp] theorem evPosUse_mag3D (x : In) (s : St) : (evPosUse x s).mag3D = s.mag3D := (evPosUse_frame x s).2.2.2.2.2.1
@[simp] theorem evPosUse_magDec (x : In) (s : St) : (evPosUse x s).magDec = s.magDec := (evPosUse_frame x s).2.2.2.2.2.2.1
@[simp] theorem evPosUse_wind (x : In) (s : St) : (evPosUse x s).wind = s.wind := (evPosUse_frame x s).2.2.2.2.2.2.2.1
@[simp] theorem evPosUse_evPos (x : In) (s : St) : (evPosUse x s).evPos = s.evPos := (evPosUse_frame x s).2.2.2.2.2.2.2.2.1
@[simp] theorem evPosUse_evVel (x : In) (s : St) : (evPosUse x s).evVel = s.evVel := (evPosUse_frame x s).2.2.2.2.2.2.2.2.2.1
@[simp] theorem evPosUse_evYaw (x : In) (s : St) : (evPosUse x s).evYaw = s.evYaw := (evPosUse_frame x s).2.2.2.2.2.2.2.2.2.2.1
@[simp] theorem evPosUse_gpsYaw (x : In) (s : St) : (evPosUse x s).gpsYaw = s.gpsYaw := (evPosUse_frame x s).2.2.2.2.2.2.2.2.2.2.2.1
@[simp] theorem evPosUse_magDist (x : In) (s : St) : (evPosUse x s).magDist = s.magDist := (evPosUse_frame x s).2.2.2.2.2.2.2.2.2.2.2.2.1
@[simp] theorem evPosUse_magFault (x : In) (s : St) : (evPosUse x s).magFault = s.magFault := (evPosUse_frame x s).2.2.2.2.2.2.2.2.2.2.2.2.2.1
@[simp] theorem evPosUse_fuseAspd (x : In) (s : St) : (evPosUse x s).fuseAspd = s.fuseAspd := (evPosUse_frame x s).2.2.2.2.2.2.2.2.2.2.2.2.2.2.1
@[simp] theorem evPosUse_magAligned (x : In) (s : St) : (evPosUse x s).magAligned = s.magAligned := (evPosUse_frame x s).2.2.2.2.2.2.2.2.2.2.2.2.2.2.2.1
@[simp] theorem evPosUse_magYawReq (x : In) (s : St) : (evPosUse x s).magYawReq = s.magYawReq := (evPosUse_frame x s).2.2.2.2.2.2.2.2.2.2.2.2.2.2.2.2.1
@[simp] theorem evPosUse_magInhReq (x : In) (s : St) : (evPosUse x s).magInhReq = s.magInhReq := (evPosUse_frame x s).2.2.2.2.2.2.2.2.2.2.2.2.2.2.2.2.2.1
@[simp] theorem evPosUse_velposReq (x : In) (s : St) : (evPosUse x s).velposReq = s.velposReq := (evPosUse_frame x s).2.2.2.2.2.2.2.2.2.2.2.2.2.2.2.2.2.2.1
@[simp] theorem evPosUse_inhibited (x : In) (s : St) : (evPosUse x s).inhibited = s.inhibited := (evPosUse_frame x s).2.2.2.2.2.2.2.2.2.2.2.2.2.2.2.2.2.2.2.1
@[simp] theorem evPosUse_nonMagPrev (x : In) (s : St) : (evPosUse x s).nonMagPrev = s.nonMagPrev := (evPosUse_frame x s).2.2.2.2.2.2.2.2.2.2.2.2.2.2.2.2.2.2.2.2.1
@[simp] theorem evPosUse_yawObs (x : In) (s : St) : (evPosUse x s).yawObs = s.yawObs := (evPosUse_frame x s).2.2.2.2.2.2.2.2.2.2.2.2.2.2.2.2.2.2.2.2.2.1
@[simp] theorem evPosUse_biasObs (x : In) (s : St) : (evPosUse x s).biasObs = s.biasObs := (evPosUse_frame x s).2.2.2.2.2.2.2.2.2.2.2.2.2.2.2.2.2.2.2.2.2.2.1
@[simp] theorem evPosUse_nBad (x : In) (s : St) : (evPosUse x s).nBad = s.nBad := (evPosUse_frame x s).2.2.2.2.2.2.2.2.2.2.2.2.2.2.2.2.2.2.2.2.2.2.2.1
@[simp] theorem evPosUse_declCovReset (x : In) (s : St) : (evPosUse x s).declCovReset = s.declCovReset := (evPosUse_frame x s).2.2.2.2.2.2.2.2.2.2.2.2.2.2.2.2.2.2.2.2.2.2.2.2.1
@[simp] theorem evPosUse_tAlign (x : In) (s : St) : (evPosUse x s).tAlign = s.tAlign := (evPosUse_frame x s).2.2.2.2.2.2.2.2.2.2.2.2.2.2.2.2.2.2.2.2.2.2.2.2.2.1
@[simp] theorem evPosUse_tMov (x : In) (s : St) : (evPosUse x s).tMov = s.tMov := (evPosUse_frame x s).2.2.2.2.2.2.2.2.2.2.2.2.2.2.2.2.2.2.2.2.2.2.2.2.2.2.1
@[simp] theorem evPosUse_tNotInh (x : In) (s : St) : (evPosUse x s).tNotInh = s.tNotInh := (evPosUse_frame x s).2.2.2.2.2.2.2.2.2.2.2.2.2.2.2.2.2.2.2.2.2.2.2.2.2.2.2.1
@[simp] theorem evPosUse_tYaw (x : In) (s : St) : (evPosUse x s).tYaw = s.tYaw := (evPosUse_frame x s).2.2.2.2.2.2.2.2.2.2.2.2.2.2.2.2.2.2.2.2.2.2.2.2.2.2.2.2.1
@[simp] theorem evPosUse_gpsYawFaulty (x : In) (s : St) : (evPosUse x s).gpsYawFaulty = s.gpsYawFaulty := (evPosUse_frame x s).2.2.2.2.2.2.2.2.2.2.2.2.2.2.2.2.2.2.2.2.2.2.2.2.2.2.2.2.2.1
@[simp] theorem evPosUse_doGsf (x : In) (s : St) : (evPosUse x s).doGsf = s.doGsf := (evPosUse_frame x s).2.2.2.2.2.2.2.2.2.2.2.2.2.2.2.2.2.2.2.2.2.2.2.2.2.2.2.2.2.2.1
@[simp] theorem evPosUse_gsfTime (x : In) (s : St) : (evPosUse x s).gsfTime = s.gsfTime := (evPosUse_frame x s).2.2.2.2.2.2.2.2.2.2.2.2.2.2.2.2.2.2.2.2.2.2.2.2.2.2.2.2.2.2.2.1
@[simp] theorem evPosUse_gsfCount (x : In) (s : St) : (evPosUse x s).gsfCount = s.gsfCount := (evPosUse_frame x s).2.2.2.2.2.2.2.2.2.2.2.2.2.2.2.2.2.2.2.2.2.2.2.2.2.2.2.2.2.2.2.2.1
@[simp] theorem evPosUse_tVel (x : In) (s : St) : (evPosUse x s).tVel = s.tVel := (evPosUse_frame x s).2.2.2.2.2.2.2.2.2.2.2.2.2.2.2.2.2.2.2.2.2.2.2.2.2.2.2.2.2.2.2.2.2.1
@[simp] theorem evPosUse_tOf (x : In) (s : St) : (evPosUse x s).tOf = s.tOf := (evPosUse_frame x s).2.2.2.2.2.2.2.2.2.2.2.2.2.2.2.2.2.2.2.2.2.2.2.2.2.2.2.2.2.2.2.2.2.2.1
@[simp] theorem evPosUse_tBeta (x : In) (s : St) : (evPosUse x s).tBeta = s.tBeta := (evPosUse_frame x s).2.2.2.2.2.2.2.2.2.2.2.2.2.2.2.2.2.2.2.2.2.2.2.2.2.2.2.2.2.2.2.2.2.2.2.1
@[simp] theorem evPosUse_tArsp (x : In) (s : St) : (evPosUse x s).tArsp = s.tArsp := (evPosUse_frame x s).2.2.2.2.2.2.2.2.2.2.2.2.2.2.2.2.2.2.2.2.2.2.2.2.2.2.2.2.2.2.2.2.2.2.2.2.1
@[simp] theorem evPosUse_tFake (x : In) (s : St) : (evPosUse x s).tFake = s.tFake := (evPosUse_frame x s).2.2.2.2.2.2.2.2.2.2.2.2.2.2.2.2.2.2.2.2.2.2.2.2.2.2.2.2.2.2.2.2.2.2.2.2.2.1
@[simp] theorem evPosUse_tGpsYaw (x : In) (s : St) : (evPosUse x s).tGpsYaw = s.tGpsYaw := (evPosUse_frame x s).2.2.2.2.2.2.2.2.2.2.2.2.2.2.2.2.2.2.2.2.2.2.2.2.2.2.2.2.2.2.2.2.2.2.2.2.2.2.1
@[simp] theorem evPosUse_synth (x : In) (s : St) : (evPosUse x s).synth = s.synth := (evPosUse_frame x s).2.2.2.2.2.2.2.2.2.2.2.2.2.2.2.2.2.2.2.2.2.2.2.2.2.2.2.2.2.2.2.2.2.2.2.2.2.2.2.1
@[simp] theorem evPosUse_flowReady (x : In) (s : St) : (evPosUse x s).flowReady = s.flowReady := (evPosUse_frame x s).2.2.2.2.2.2.2.2.2.2.2.2.2.2.2.2.2.2.2.2.2.2.2.2.2.2.2.2.2.2.2.2.2.2.2.2.2.2.2.2.1
@[simp] theorem evPosUse_flowInh (x : In) (s : St) : (evPosUse x s).flowInh = s.flowInh := (evPosUse_frame x s).2.2.2.2.2.2.2.2.2.2.2.2.2.2.2.2.2.2.2.2.2.2.2.2.2.2.2.2.2.2.2.2.2.2.2.2.2.2.2.2.2.1
@[simp] theorem evPosUse_tGood (x : In) (s : St) : (evPosUse x s).tGood = s.tGood := (evPosUse_frame x s).2.2.2.2.2.2.2.2.2.2.2.2.2.2.2.2.2.2.2.2.2.2.2.2.2.2.2.2.2.2.2.2.2.2.2.2.2.2.2.2.2.2.1
@[simp] theorem evPosUse_tBad (x : In) (s : St) : (evPosUse x s).tBad = s.tBad := (evPosUse_frame x s).2.2.2.2.2.2.2.2.2.2.2.2.2.2.2.2.2.2.2.2.2.2.2.2.2.2.2.2.2.2.2.2.2.2.2.2.2.2.2.2.2.2.2

theorem evVelUse_frame (x : In) (s : St) :
    (evVelUse x s).tilt = s.tilt ∧ (evVelUse x s).yawAlign = s.yawAlign ∧ (evVelUse x s).gps = s.gps ∧ (evVelUse x s).optFlow = s.optFlow ∧ (evVelUse x s).magHdg = s.magHdg ∧ (evVelUse x s).mag3D = s.mag3D ∧ (evVelUse x s).magDec = s.magDec ∧ (evVelUse x s).wind = s.wind ∧ (evVelUse x s).evPos = s.evPos ∧ (evVelUse x s).evVel = s.evVel ∧ (evVelUse x s).evYaw = s.evYaw ∧ (evVelUse x s).gpsYaw = s.gpsYaw ∧ (evVelUse x s).magDist = s.magDist ∧ (evVelUse x s).magFault = s.magFault ∧ (evVelUse x s).fuseAspd = s.fuseAspd ∧ (evVelUse x s).magAligned = s.magAligned ∧ (evVelUse x s).magYawReq = s.magYawReq ∧ (evVelUse x s).magInhReq = s.magInhReq ∧ (evVelUse x s).velposReq = s.velposReq ∧ (evVelUse x s).inhibited = s.inhibited ∧ (evVelUse x s).nonMagPrev = s.nonMagPrev ∧ (evVelUse x s).yawObs = s.yawObs ∧ (evVelUse x s).biasObs = s.biasObs ∧ (evVelUse x s).nBad = s.nBad ∧ (evVelUse x s).declCovReset = s.declCovReset ∧ (evVelUse x s).tAlign = s.tAlign ∧ (evVelUse x s).tMov = s.tMov ∧ (evVelUse x s).tNotInh = s.tNotInh ∧ (evVelUse x s).tYaw = s.tYaw ∧ (evVelUse x s).gpsYawFaulty = s.gpsYawFaulty ∧ (evVelUse x s).doGsf = s.doGsf ∧ (evVelUse x s).gsfTime = s.gsfTime ∧ (evVelUse x s).gsfCount = s.gsfCount ∧ (evVelUse x s).tPos = s.tPos ∧ (evVelUse x s).tDelpos = s.tDelpos ∧ (evVelUse x s).tOf = s.tOf ∧ (evVelUse x s).tBeta = s.tBeta ∧ (evVelUse x s).tArsp = s.tArsp ∧ (evVelUse x s).tFake = s.tFake ∧ (evVelUse x s).tGpsYaw = s.tGpsYaw ∧ (evVelUse x s).hposPrev = s.hposPrev ∧ (evVelUse x s).hposOdom = s.hposOdom ∧ (evVelUse x s).synth = s.synth ∧ (evVelUse x s).flowReady = s.flowReady ∧ (evVelUse x s).flowInh = s.flowInh ∧ (evVelUse x s).tGood = s.tGood ∧ (evVelUse x s).tBad = s.tBad := by
  unfold evVelUse; (try dsimp only); split_ifs <;> simp [*]
@[simp] theorem evVelUse_tilt (x : In) (s : St) : (evVelUse x s).tilt = s.tilt := (evVelUse_frame x s).1
@[simp] theorem evVelUse_yawAlign (x : In) (s : St) : (evVelUse x s).yawAlign = s.yawAlign := (evVelUse_frame x s).2.1
@[simp] theorem evVelUse_gps (x : In) (s : St) : (evVelUse x s).gps = s.gps := (evVelUse_frame x s).2.2.1
@[simp] theorem evVelUse_optFlow (x : In) (s : St) : (evVelUse x s).optFlow = s.optFlow := (evVelUse_frame x s).2.2.2.1
@[simp] theorem evVelUse_magHdg (x : In) (s : St) : (evVelUse x s).magHdg = s.magHdg := (evVelUse_frame x s).2.2.2.2.1
@[simp] theorem evVelUse_mag3D (x : In) (s : St) : (evVelUse x s).mag3D = s.mag3D := (evVelUse_frame x s).2.2.2.2.2.1
@[simp] theorem evVelUse_magDec (x : In) (s : St) : (evVelUse x s).magDec = s.magDec := (evVelUse_frame x s).2.2.2.2.2.2.1
@[simp] theorem evVelUse_wind (x : In) (s : St) : (evVelUse x s).wind = s.wind := (evVelUse_frame x s).2.2.2.2.2.2.2.1
@[simp] theorem evVelUse_evPos (x : In) (s : St) : (evVelUse x s).evPos = s.evPos := (evVelUse_frame x s).2.2.2.2.2.2.2.2.1
@[simp] theorem evVelUse_evVel (x : In) (s : St) : (evVelUse x s).evVel = s.evVel := (evVelUse_frame x s).2.2.2.2.2.2.2.2.2.1
@[simp] theorem evVelUse_evYaw (x : In) (s : St) : (evVelUse x s).evYaw = s.evYaw := (evVelUse_frame x s).2.2.2.2.2.2.2.2.2.2.1
@[simp] theorem evVelUse_gpsYaw (x : In) (s : St) : (evVelUse x s).gpsYaw = s.gpsYaw := (evVelUse_frame x s).2.2.2.2.2.2.2.2.2.2.2.1
@[simp] theorem evVelUse_magDist (x : In) (s : St) : (evVelUse x s).magDist = s.magDist := (evVelUse_frame x s).2.2.2.2.2.2.2.2.2.2.2.2.1
@[simp] theorem evVelUse_magFault (x : In) (s : St) : (evVelUse x s).magFault = s.magFault := (evVelUse_frame x s).2.2.2.2.2.2.2.2.2.2.2.2.2.1
@[simp] theorem evVelUse_fuseAspd (x : In) (s : St) : (evVelUse x s).fuseAspd = s.fuseAspd := (evVelUse_frame x s).2.2.2.2.2.2.2.2.2.2.2.2.2.2.1
@[simp] theorem evVelUse_magAligned (x : In) (s : St) : (evVelUse x s).magAligned = s.magAligned := (evVelUse_frame x s).2.2.2.2.2.2.2.2.2.2.2.2.2.2.2.1
@[simp] theorem evVelUse_magYawReq (x : In) (s : St) : (evVelUse x s).magYawReq = s.magYawReq := (evVelUse_frame x s).2.2.2.2.2.2.2.2.2.2.2.2.2.2.2.2.1
@[simp] theorem evVelUse_magInhReq (x : In) (s : St) : (evVelUse x s).magInhReq = s.magInhReq := (evVelUse_frame x s).2.2.2.2.2.2.2.2.2.2.2.2.2.2.2.2.2.1
@[simp] theorem evVelUse_velposReq (x : In) (s : St) : (evVelUse x s).velposReq = s.velposReq := (evVelUse_frame x s).2.2.2.2.2.2.2.2.2.2.2.2.2.2.2.2.2.2.1
@[simp] theorem evVelUse_inhibited (x : In) (s : St) : (evVelUse x s).inhibited = s.inhibited := (evVelUse_frame x s).2.2.2.2.2.2.2.2.2.2.2.2.2.2.2.2.2.2.2.1
@[simp] theorem evVelUse_nonMagPrev (x : In) (s : St) : (evVelUse x s).nonMagPrev = s.nonMagPrev := (evVelUse_frame x s).2.2.2.2.2.2.2.2.2.2.2.2.2.2.2.2.2.2.2.2.1
@[simp] theorem evVelUse_yawObs (x : In) (s : St) : (evVelUse x s).yawObs = s.yawObs := (evVelUse_frame x s).2.2.2.2.2.2.2.2.2.2.2.2.2.2.2.2.2.2.2.2.2.1
@[simp] theorem evVelUse_biasObs (x : In) (s : St) : (evVelUse x s).biasObs = s.biasObs := (evVelUse_frame x s).2.2.2.2.2.2.2.2.2.2.2.2.2.2.2.2.2.2.2.2.2.2.1
@[simp] theorem evVelUse_nBad (x : In) (s : St) : (evVelUse x s).nBad = s.nBad := (evVelUse_frame x s).2.2.2.2.2.2.2.2.2.2.2.2.2.2.2.2.2.2.2.2.2.2.2.1
@[simp] theorem evVelUse_declCovReset (x : In) (s : St) : (evVelUse x s).declCovReset = s.declCovReset := (evVelUse_frame x s).2.2.2.2.2.2.2.2.2.2.2.2.2.2.2.2.2.2.2.2.2.2.2.2.1
@[simp] theorem evVelUse_tAlign (x : In) (s : St) : (evVelUse x s).tAlign = s.tAlign := (evVelUse_frame x s).2.2.2.2.2.2.2.2.2.2.2.2.2.2.2.2.2.2.2.2.2.2.2.2.2.1
@[simp] theorem evVelUse_tMov (x : In) (s : St) : (evVelUse x s).tMov = s.tMov := (evVelUse_frame x s).2.2.2.2.2.2.2.2.2.2.2.2.2.2.2.2.2.2.2.2.2.2.2.2.2.2.1
@[simp] theorem evVelUse_tNotInh (x : In) (s : St) : (evVelUse x s).tNotInh = s.tNotInh := (evVelUse_frame x s).2.2.2.2.2.2.2.2.2.2.2.2.2.2.2.2.2.2.2.2.2.2.2.2.2.2.2.1
@[simp] theorem evVelUse_tYaw (x : In) (s : St) : (evVelUse x s).tYaw = s.tYaw := (evVelUse_frame x s).2.2.2.2.2.2.2.2.2.2.2.2.2.2.2.2.2.2.2.2.2.2.2.2.2.2.2.2.1
@[simp] theorem evVelUse_gpsYawFaulty (x : In) (s : St) : (evVelUse x s).gpsYawFaulty = s.gpsYawFaulty := (evVelUse_frame x s).2.2.2.2.2.2.2.2.2.2.2.2.2.2.2.2.2.2.2.2.2.2.2.2.2.2.2.2.2.1
@[simp] theorem evVelUse_doGsf (x : In) (s : St) : (evVelUse x s).doGsf = s.doGsf := (evVelUse_frame x s).2.2.2.2.2.2.2.2.2.2.2.2.2.2.2.2.2.2.2.2.2.2.2.2.2.2.2.2.2.2.1
@[simp] theorem evVelUse_gsfTime (x : In) (s : St) : (evVelUse x s).gsfTime = s.gsfTime := (evVelUse_frame x s).2.2.2.2.2.2.2.2.2.2.2.2.2.2.2.2.2.2.2.2.2.2.2.2.2.2.2.2.2.2.2.1
@[simp] theorem evVelUse_gsfCount (x : In) (s : St) : (evVelUse x s).gsfCount = s.gsfCount := (evVelUse_frame x s).2.2.2.2.2.2.2.2.2.2.2.2.2.2.2.2.2.2.2.2.2.2.2.2.2.2.2.2.2.2.2.2.1
@[simp] theorem evVelUse_tPos (x : In) (s : St) : (evVelUse x s).tPos = s.tPos := (evVelUse_frame x s).2.2.2.2.2.2.2.2.2.2.2.2.2.2.2.2.2.2.2.2.2.2.2.2.2.2.2.2.2.2.2.2.2.1
@[simp] theorem evVelUse_tDelpos (x : In) (s : St) : (evVelUse x s).tDelpos = s.tDelpos := (evVelUse_frame x s).2.2.2.2.2.2.2.2.2.2.2.2.2.2.2.2.2.2.2.2.2.2.2.2.2.2.2.2.2.2.2.2.2.2.1
@[simp] theorem evVelUse_tOf (x : In) (s : St) : (evVelUse x s).tOf = s.tOf := (evVelUse_frame x s).2.2.2.2.2.2.2.2.2.2.2.2.2.2.2.2.2.2.2.2.2.2.2.2.2.2.2.2.2.2.2.2.2.2.2.1
@[simp] theorem evVelUse_tBeta (x : In) (s : St) : (evVelUse x s).tBeta = s.tBeta := (evVelUse_frame x s).2.2.2.2.2.2.2.2.2.2.2.2.2.2.2.2.2.2.2.2.2.2.2.2.2.2.2.2.2.2.2.2.2.2.2.2.1
@[simp] theorem evVelUse_tArsp (x : In) (s : St) : (evVelUse x s).tArsp = s.tArsp := (evVelUse_frame x s).2.2.2.2.2.2.2.2.2.2.2.2.2.2.2.2.2.2.2.2.2.2.2.2.2.2.2.2.2.2.2.2.2.2.2.2.2.1
@[simp] theorem evVelUse_tFake (x : In) (s : St) : (evVelUse x s).tFake = s.tFake := (evVelUse_frame x s).2.2.2.2.2.2.2.2.2.2.2.2.2.2.2.2.2.2.2.2.2.2.2.2.2.2.2.2.2.2.2.2.2.2.2.2.2.2.1
@[simp] theorem evVelUse_tGpsYaw (x : In) (s : St) : (evVelUse x s).tGpsYaw = s.tGpsYaw := (evVelUse_frame x s).2.2.2.2.2.2.2.2.2.2.2.2.2.2.2.2.2.2.2.2.2.2.2.2.2.2.2.2.2.2.2.2.2.2.2.2.2.2.2.1
@[simp] theorem evVelUse_hposPrev (x : In) (s : St) : (evVelUse x s).hposPrev = s.hposPrev := (evVelUse_frame x s).2.2.2.2.2.2.2.2.2.2.2.2.2.2.2.2.2.2.2.2.2.2.2.2.2.2.2.2.2.2.2.2.2.2.2.2.2.2.2.2.1
@[simp] theorem evVelUse_hposOdom (x : In) (s : St) : (evVelUse x s).hposOdom = s.hposOdom := (evVelUse_frame x s).2.2.2.2.2.2.2.2.2.2.2.2.2.2.2.2.2.2.2.2.2.2.2.2.2.2.2.2.2.2.2.2.2.2.2.2.2.2.2.2.2.1
@[simp] theorem evVelUse_synth (x : In) (s : St) : (evVelUse x s).synth = s.synth := (evVelUse_frame x s).2.2.2.2.2.2.2.2.2.2.2.2.2.2.2.2.2.2.2.2.2.2.2.2.2.2.2.2.2.2.2.2.2.2.2.2.2.2.2.2.2.2.1
@[simp] theorem evVelUse_flowReady (x : In) (s : St) : (evVelUse x s).flowReady = s.flowReady := (evVelUse_frame x s).2.2.2.2.2.2.2.2.2.2.2.2.2.2.2.2.2.2.2.2.2.2.2.2.2.2.2.2.2.2.2.2.2.2.2.2.2.2.2.2.2.2.2.1
@[simp] theorem evVelUse_flowInh (x : In) (s : St) : (evVelUse x s).flowInh = s.flowInh := (evVelUse_frame x s).2.2.2.2.2.2.2.2.2.2.2.2.2.2.2.2.2.2.2.2.2.2.2.2.2.2.2.2.2.2.2.2.2.2.2.2.2.2.2.2.2.2.2.2.1
@[simp] theorem evVelUse_tGood (x : In) (s : St) : (evVelUse x s).tGood = s.tGood := (evVelUse_frame x s).2.2.2.2.2.2.2.2.2.2.2.2.2.2.2.2.2.2.2.2.2.2.2.2.2.2.2.2.2.2.2.2.2.2.2.2.2.2.2.2.2.2.2.2.2.1
@[simp] theorem evVelUse_tBad (x : In) (s : St) : (evVelUse x s).tBad = s.tBad := (evVelUse_frame x s).2.2.2.2.2.2.2.2.2.2.2.2.2.2.2.2.2.2.2.2.2.2.2.2.2.2.2.2.2.2.2.2.2.2.2.2.2.2.2.2.2.2.2.2.2.2

theorem stopEv_frame (s : St) :
    (stopEv s).tilt = s.tilt ∧ (stopEv s).yawAlign = s.yawAlign ∧ (stopEv s).gps = s.gps ∧ (stopEv s).optFlow = s.optFlow ∧ (stopEv s).magHdg = s.magHdg ∧ (stopEv s).mag3D = s.mag3D ∧ (stopEv s).magDec = s.magDec ∧ (stopEv s).wind = s.wind ∧ (stopEv s).gpsYaw = s.gpsYaw ∧ (stopEv s).magDist = s.magDist ∧ (stopEv s).magFault = s.magFault ∧ (stopEv s).fuseAspd = s.fuseAspd ∧ (stopEv s).magAligned = s.magAligned ∧ (stopEv s).magYawReq = s.magYawReq ∧ (stopEv s).magInhReq = s.magInhReq ∧ (stopEv s).velposReq = s.velposReq ∧ (stopEv s).inhibited = s.inhibited ∧ (stopEv s).nonMagPrev = s.nonMagPrev ∧ (stopEv s).yawObs = s.yawObs ∧ (stopEv s).biasObs = s.biasObs ∧ (stopEv s).nBad = s.nBad ∧ (stopEv s).declCovReset = s.declCovReset ∧ (stopEv s).tAlign = s.tAlign ∧ (stopEv s).tMov = s.tMov ∧ (stopEv s).tNotInh = s.tNotInh ∧ (stopEv s).tYaw = s.tYaw ∧ (stopEv s).gpsYawFaulty = s.gpsYawFaulty ∧ (stopEv s).doGsf = s.doGsf ∧ (stopEv s).gsfTime = s.gsfTime ∧ (stopEv s).gsfCount = s.gsfCount ∧ (stopEv s).tPos = s.tPos ∧ (stopEv s).tDelpos = s.tDelpos ∧ (stopEv s).tVel = s.tVel ∧ (stopEv s).tOf = s.tOf ∧ (stopEv s).tBeta = s.tBeta ∧ (stopEv s).tArsp = s.tArsp ∧ (stopEv s).tFake = s.tFake ∧ (stopEv s).tGpsYaw = s.tGpsYaw ∧ (stopEv s).hposPrev = s.hposPrev ∧ (stopEv s).hposOdom = s.hposOdom ∧ (stopEv s).synth = s.synth ∧ (stopEv s).flowReady = s.flowReady ∧ (stopEv s).flowInh = s.flowInh ∧ (stopEv s).tGood = s.tGood ∧ (stopEv s).tBad = s.tBad := by
  unfold stopEv; simp
@[simp] theorem stopEv_tilt (s : St) : (stopEv s).tilt = s.tilt := (stopEv_frame s).1
@[simp] theorem stopEv_yawAlign (s : St) : (stopEv s).yawAlign = s.yawAlign := (stopEv_frame s).2.1
@[simp] theorem stopEv_gps (s : St) : (stopEv s).gps = s.gps := (stopEv_frame s).2.2.1
@[simp] theorem stopEv_optFlow (s : St) : (stopEv s).optFlow = s.optFlow := (stopEv_frame s).2.2.2.1
@[simp] theorem stopEv_magHdg (s : St) : (stopEv s).magHdg = s.magHdg := (stopEv_frame s).2.2.2.2.1
@[simp] theorem stopEv_mag3D (s : St) : (stopEv s).mag3D = s.mag3D := (stopEv_frame s).2.2.2.2.2.1
@[simp] theorem stopEv_magDec (s : St) : (stopEv s).magDec = s.magDec := (stopEv_frame s).2.2.2.2.2.2.1
@[simp] theorem stopEv_wind (s : St) : (stopEv s).wind = s.wind := (stopEv_frame s).2.2.2.2.2.2.2.1
@[simp] theorem stopEv_gpsYaw (s : St) : (stopEv s).gpsYaw = s.gpsYaw := (stopEv_frame s).2.2.2.2.2.2.2.2.1
@[simp] theorem stopEv_magDist (s : St) : (stopEv s).magDist = s.magDist := (stopEv_frame s).2.2.2.2.2.2.2.2.2.1
@[simp] theorem stopEv_magFault (s : St) : (stopEv s).magFault = s.magFault := (stopEv_frame s).2.2.2.2.2.2.2.2.2.2.1
@[simp] theorem stopEv_fuseAspd (s : St) : (stopEv s).fuseAspd = s.fuseAspd := (stopEv_frame s).2.2.2.2.2.2.2.2.2.2.2.1
@[simp] theorem stopEv_magAligned (s : St) : (stopEv s).magAligned = s.magAligned := (stopEv_frame s).2.2.2.2.2.2.2.2.2.2.2.2.1
@[simp] theorem stopEv_magYawReq (s : St) : (stopEv s).magYawReq = s.magYawReq := (stopEv_frame s).2.2.2.2.2.2.2.2.2.2.2.2.2.1
@[simp] theorem stopEv_magInhReq (s : St) : (stopEv s).magInhReq = s.magInhReq := (stopEv_frame s).2.2.2.2.2.2.2.2.2.2.2.2.2.2.1
@[simp] theorem stopEv_velposReq (s : St) : (stopEv s).velposReq = s.velposReq := (stopEv_frame s).2.2.2.2.2.2.2.2.2.2.2.2.2.2.2.1
@[simp] theorem stopEv_inhibited (s : St) : (stopEv s).inhibited = s.inhibited := (stopEv_frame s).2.2.2.2.2.2.2.2.2.2.2.2.2.2.2.2.1
@[simp] theorem stopEv_nonMagPrev (s : St) : (stopEv s).nonMagPrev = s.nonMagPrev := (stopEv_frame s).2.2.2.2.2.2.2.2.2.2.2.2.2.2.2.2.2.1
@[simp] theorem stopEv_yawObs (s : St) : (stopEv s).yawObs = s.yawObs := (stopEv_frame s).2.2.2.2.2.2.2.2.2.2.2.2.2.2.2.2.2.2.1
@[simp] theorem stopEv_biasObs (s : St) : (stopEv s).biasObs = s.biasObs := (stopEv_frame s).2.2.2.2.2.2.2.2.2.2.2.2.2.2.2.2.2.2.2.1
@[simp] theorem stopEv_nBad (s : St) : (stopEv s).nBad = s.nBad := (stopEv_frame s).2.2.2.2.2.2.2.2.2.2.2.2.2.2.2.2.2.2.2.2.1
@[simp] theorem stopEv_declCovReset (s : St) : (stopEv s).declCovReset = s.declCovReset := (stopEv_frame s).2.2.2.2.2.2.2.2.2.2.2.2.2.2.2.2.2.2.2.2.2.1
@[simp] theorem stopEv_tAlign (s : St) : (stopEv s).tAlign = s.tAlign := (stopEv_frame s).2.2.2.2.2.2.2.2.2.2.2.2.2.2.2.2.2.2.2.2.2.2.1
@[simp] theorem stopEv_tMov (s : St) : (stopEv s).tMov = s.tMov := (stopEv_frame s).2.2.2.2.2.2.2.2.2.2.2.2.2.2.2.2.2.2.2.2.2.2.2.1
@[simp] theorem stopEv_tNotInh (s : St) : (stopEv s).tNotInh = s.tNotInh := (stopEv_frame s).2.2.2.2.2.2.2.2.2.2.2.2.2.2.2.2.2.2.2.2.2.2.2.2.1
@[simp] theorem stopEv_tYaw (s : St) : (stopEv s).tYaw = s.tYaw := (stopEv_frame s).2.2.2.2.2.2.2.2.2.2.2.2.2.2.2.2.2.2.2.2.2.2.2.2.2.1
@[simp] theorem stopEv_gpsYawFaulty (s : St) : (stopEv s).gpsYawFaulty = s.gpsYawFaulty := (stopEv_frame s).2.2.2.2.2.2.2.2.2.2.2.2.2.2.2.2.2.2.2.2.2.2.2.2.2.2.1
@[simp] theorem stopEv_doGsf (s : St) : (stopEv s).doGsf = s.doGsf := (stopEv_frame s).2.2.2.2.2.2.2.2.2.2.2.2.2.2.2.2.2.2.2.2.2.2.2.2.2.2.2.1
@[simp] theorem stopEv_gsfTime (s : St) : (stopEv s).gsfTime = s.gsfTime := (stopEv_frame s).2.2.2.2.2.2.2.2.2.2.2.2.2.2.2.2.2.2.2.2.2.2.2.2.2.2.2.2.1
@[simp] theorem stopEv_gsfCount (s : St) : (stopEv s).gsfCount = s.gsfCount := (stopEv_frame s).2.2.2.2.2.2.2.2.2.2.2.2.2.2.2.2.2.2.2.2.2.2.2.2.2.2.2.2.2.1
@[simp] theorem stopEv_tPos (s : St) : (stopEv s).tPos = s.tPos := (stopEv_frame s).2.2.2.2.2.2.2.2.2.2.2.2.2.2.2.2.2.2.2.2.2.2.2.2.2.2.2.2.2.2.1
@[simp] theorem stopEv_tDelpos (s : St) : (stopEv s).tDelpos = s.tDelpos := (stopEv_frame s).2.2.2.2.2.2.2.2.2.2.2.2.2.2.2.2.2.2.2.2.2.2.2.2.2.2.2.2.2.2.2.1
@[simp] theorem stopEv_tVel (s : St) : (stopEv s).tVel = s.tVel := (stopEv_frame s).2.2.2.2.2.2.2.2.2.2.2.2.2.2.2.2.2.2.2.2.2.2.2.2.2.2.2.2.2.2.2.2.1
@[simp] theorem stopEv_tOf (s : St) : (stopEv s).tOf = s.tOf := (stopEv_frame s).2.2.2.2.2.2.2.2.2.2.2.2.2.2.2.2.2.2.2.2.2.2.2.2.2.2.2.2.2.2.2.2.2.1
@[simp] theorem stopEv_tBeta (s : St) : (stopEv s).tBeta = s.tBeta := (stopEv_frame s).2.2.2.2.2.2.2.2.2.2.2.2.2.2.2.2.2.2.2.2.2.2.2.2.2.2.2.2.2.2.2.2.2.2.1
@[simp] theorem stopEv_tArsp (s : St) : (stopEv s).tArsp = s.tArsp := (stopEv_frame s).2.2.2.2.2.2.2.2.2.2.2.2.2.2.2.2.2.2.2.2.2.2.2.2.2.2.2.2.2.2.2.2.2.2.2.1
@[simp] theorem stopEv_tFake (s : St) : (stopEv s).tFake = s.tFake := (stopEv_frame s).2.2.2.2.2.2.2.2.2.2.2.2.2.2.2.2.2.2.2.2.2.2.2.2.2.2.2.2.2.2.2.2.2.2.2.2.1
@[simp] theorem stopEv_tGpsYaw (s : St) : (stopEv s).tGpsYaw = s.tGpsYaw := (stopEv_frame s).2.2.2.2.2.2.2.2.2.2.2.2.2.2.2.2.2.2.2.2.2.2.2.2.2.2.2.2.2.2.2.2.2.2.2.2.2.1
@[simp] theorem stopEv_hposPrev (s : St) : (stopEv s).hposPrev = s.hposPrev := (stopEv_frame s).2.2.2.2.2.2.2.2.2.2.2.2.2.2.2.2.2.2.2.2.2.2.2.2.2.2.2.2.2.2.2.2.2.2.2.2.2.2.1
@[simp] theorem stopEv_hposOdom (s : St) : (stopEv s).hposOdom = s.hposOdom := (stopEv_frame s).2.2.2.2.2.2.2.2.2.2.2.2.2.2.2.2.2.2.2.2.2.2.2.2.2.2.2.2.2.2.2.2.2.2.2.2.2.2.2.1
@[simp] theorem stopEv_synth (s : St) : (stopEv s).synth = s.synth := (stopEv_frame s).2.2.2.2.2.2.2.2.2.2.2.2.2.2.2.2.2.2.2.2.2.2.2.2.2.2.2.2.2.2.2.2.2.2.2.2.2.2.2.2.1
@[simp] theorem stopEv_flowReady (s : St) : (stopEv s).flowReady = s.flowReady := (stopEv_frame s).2.2.2.2.2.2.2.2.2.2.2.2.2.2.2.2.2.2.2.2.2.2.2.2.2.2.2.2.2.2.2.2.2.2.2.2.2.2.2.2.2.1
@[simp] theorem stopEv_flowInh (s : St) : (stopEv s).flowInh = s.flowInh := (stopEv_frame s).2.2.2.2.2.2.2.2.2.2.2.2.2.2.2.2.2.2.2.2.2.2.2.2.2.2.2.2.2.2.2.2.2.2.2.2.2.2.2.2.2.2.1
@[simp] theorem stopEv_tGood (s : St) : (stopEv s).tGood = s.tGood := (stopEv_frame s).2.2.2.2.2.2.2.2.2.2.2.2.2.2.2.2.2.2.2.2.2.2.2.2.2.2.2.2.2.2.2.2.2.2.2.2.2.2.2.2.2.2.2.1
@[simp] theorem stopEv_tBad (s : St) : (stopEv s).tBad = s.tBad := (stopEv_frame s).2.2.2.2.2.2.2.2.2.2.2.2.2.2.2.2.2.2.2.2.2.2.2.2.2.2.2.2.2.2.2.2.2.2.2.2.2.2.2.2.2.2.2.2

theorem controlEv_frame (x : In) (s : St) :
    (controlEv x s).tilt = s.tilt ∧ (controlEv x s).gps = s.gps ∧ (controlEv x s).optFlow = s.optFlow ∧ (controlEv x s).wind = s.wind ∧ (controlEv x s).gpsYaw = s.gpsYaw ∧ (controlEv x s).magDist = s.magDist ∧ (controlEv x s).magFault = s.magFault ∧ (controlEv x s).fuseAspd = s.fuseAspd ∧ (controlEv x s).magAligned = s.magAligned ∧ (controlEv x s).magYawReq = s.magYawReq ∧ (controlEv x s).magInhReq = s.magInhReq ∧ (controlEv x s).velposReq = s.velposReq ∧ (controlEv x s).inhibited = s.inhibited ∧ (controlEv x s).nonMagPrev = s.nonMagPrev ∧ (controlEv x s).yawObs = s.yawObs ∧ (controlEv x s).biasObs = s.biasObs ∧ (controlEv x s).nBad = s.nBad ∧ (controlEv x s).declCovReset = s.declCovReset ∧ (controlEv x s).tAlign = s.tAlign ∧ (controlEv x s).tMov = s.tMov ∧ (controlEv x s).tNotInh = s.tNotInh ∧ (controlEv x s).tYaw = s.tYaw ∧ (controlEv x s).gpsYawFaulty = s.gpsYawFaulty ∧ (controlEv x s).doGsf = s.doGsf ∧ (controlEv x s).gsfTime = s.gsfTime ∧ (controlEv x s).gsfCount = s.gsfCount ∧ (controlEv x s).tOf = s.tOf ∧ (controlEv x s).tBeta = s.tBeta ∧ (controlEv x s).tArsp = s.tArsp ∧ (controlEv x s).tFake = s.tFake ∧ (controlEv x s).tGpsYaw = s.tGpsYaw ∧ (controlEv x s).synth = s.synth ∧ (controlEv x s).flowReady = s.flowReady ∧ (controlEv x s).flowInh = s.flowInh ∧ (controlEv x s).tGood = s.tGood ∧ (controlEv x s).tBad = s.tBad := by
  unfold controlEv; (try dsimp only); split_ifs <;> simp [*]
@[simp] theorem controlEv_tilt (x : In) (s : St) : (controlEv x s).tilt = s.tilt := (controlEv_frame x s).1
@[simp] theorem controlEv_gps (x : In) (s : St) : (controlEv x s).gps = s.gps := (controlEv_frame x s).2.1
@[simp] theorem controlEv_optFlow (x : In) (s : St) : (controlEv x s).optFlow = s.optFlow := (controlEv_frame x s).2.2.1
@[simp] theorem controlEv_wind (x : In) (s : St) : (controlEv x s).wind = s.wind := (controlEv_frame x s).2.2.2.1
@[simp] theorem controlEv_gpsYaw (x : In) (s : St) : (controlEv x s).gpsYaw = s.gpsYaw := (controlEv_frame x s).2.2.2.2.1
@[simp] theorem controlEv_magDist (x : In) (s : St) : (controlEv x s).magDist = s.magDist := (controlEv_frame x s).2.2.2.2.2.1
@[simp] theorem controlEv_magFault (x : In) (s : St) : (controlEv x s).magFault = s.magFault := (controlEv_frame x s).2.2.2.2.2.2.1
@[simp] theorem controlEv_fuseAspd (x : In) (s : St) : (controlEv x s).fuseAspd = s.fuseAspd := (controlEv_frame x s).2.2.2.2.2.2.2.1
@[simp] theorem controlEv_magAligned (x : In) (s : St) : (controlEv x s).magAligned = s.magAligned := (controlEv_frame x s).2.2.2.2.2.2.2.2.1
@[simp] theorem controlEv_magYawReq (x : In) (s : St) : (controlEv x s).magYawReq = s.magYawReq := (controlEv_frame x s).2.2.2.2.2.2.2.2.2.1
@[simp] theorem controlEv_magInhReq (x : In) (s : St) : (controlEv x s).magInhReq = s.magInhReq := (controlEv_frame x s).2.2.2.2.2.2.2.2.2.2.1
@[simp] theorem controlEv_velposReq (x : In) (s : St) : (controlEv x s).velposReq = s.velposReq := (controlEv_frame x s).2.2.2.2.2.2.2.2.2.2.2.1
@[simp] theorem controlEv_inhibited (x : In) (s : St) : (controlEv x s).inhibited = s.inhibited := (controlEv_frame x s).2.2.2.2.2.2.2.2.2.2.2.2.1
@[simp] theorem controlEv_nonMagPrev (x : In) (s : St) : (controlEv x s).nonMagPrev = s.nonMagPrev := (controlEv_frame x s).2.2.2.2.2.2.2.2.2.2.2.2.2.1
@[simp] theorem controlEv_yawObs (x : In) (s : St) : (controlEv x s).yawObs = s.yawObs := (controlEv_frame x s).2.2.2.2.2.2.2.2.2.2.2.2.2.2.1
@[simp] theorem controlEv_biasObs (x : In) (s : St) : (controlEv x s).biasObs = s.biasObs := (controlEv_frame x s).2.2.2.2.2.2.2.2.2.2.2.2.2.2.2.1
@[simp] theorem controlEv_nBad (x : In) (s : St) : (controlEv x s).nBad = s.nBad := (controlEv_frame x s).2.2.2.2.2.2.2.2.2.2.2.2.2.2.2.2.1
@[simp] theorem controlEv_declCovReset (x : In) (s : St) : (controlEv x s).declCovReset = s.declCovReset := (controlEv_frame x s).2.2.2.2.2.2.2.2.2.2.2.2.2.2.2.2.2.1
@[simp] theorem controlEv_tAlign (x : In) (s : St) : (controlEv x s).tAlign = s.tAlign := (controlEv_frame x s).2.2.2.2.2.2.2.2.2.2.2.2.2.2.2.2.2.2.1
@[simp] theorem controlEv_tMov (x : In) (s : St) : (controlEv x s).tMov = s.tMov := (controlEv_frame x s).2.2.2.2.2.2.2.2.2.2.2.2.2.2.2.2.2.2.2.1
@[simp] theorem controlEv_tNotInh (x : In) (s : St) : (controlEv x s).tNotInh = s.tNotInh := (controlEv_frame x s).2.2.2.2.2.2.2.2.2.2.2.2.2.2.2.2.2.2.2.2.1
@[simp] theorem controlEv_tYaw (x : In) (s : St) : (controlEv x s).tYaw = s.tYaw := (controlEv_frame x s).2.2.2.2.2.2.2.2.2.2.2.2.2.2.2.2.2.2.2.2.2.1
@[simp] theorem controlEv_gpsYawFaulty (x : In) (s : St) : (controlEv x s).gpsYawFaulty = s.gpsYawFaulty := (controlEv_frame x s).2.2.2.2.2.2.2.2.2.2.2.2.2.2.2.2.2.2.2.2.2.2.1
@[simp] theorem controlEv_doGsf (x : In) (s : St) : (controlEv x s).doGsf = s.doGsf := (controlEv_frame x s).2.2.2.2.2.2.2.2.2.2.2.2.2.2.2.2.2.2.2.2.2.2.2.1
@[simp] theorem controlEv_gsfTime (x : In) (s : St) : (controlEv x s).gsfTime = s.gsfTime := (controlEv_frame x s).2.2.2.2.2.2.2.2.2.2.2.2.2.2.2.2.2.2.2.2.2.2.2.2.1
@[simp] theorem controlEv_gsfCount (x : In) (s : St) : (controlEv x s).gsfCount = s.gsfCount := (controlEv_frame x s).2.2.2.2.2.2.2.2.2.2.2.2.2.2.2.2.2.2.2.2.2.2.2.2.2.1
@[simp] theorem controlEv_tOf (x : In) (s : St) : (controlEv x s).tOf = s.tOf := (controlEv_frame x s).2.2.2.2.2.2.2.2.2.2.2.2.2.2.2.2.2.2.2.2.2.2.2.2.2.2.1
@[simp] theorem controlEv_tBeta (x : In) (s : St) : (controlEv x s).tBeta = s.tBeta := (controlEv_frame x s).2.2.2.2.2.2.2.2.2.2.2.2.2.2.2.2.2.2.2.2.2.2.2.2.2.2.2.1
@[simp] theorem controlEv_tArsp (x : In) (s : St) : (controlEv x s).tArsp = s.tArsp := (controlEv_frame x s).2.2.2.2.2.2.2.2.2.2.2.2.2.2.2.2.2.2.2.2.2.2.2.2.2.2.2.2.1
@[simp] theorem controlEv_tFake (x : In) (s : St) : (controlEv x s).tFake = s.tFake := (controlEv_frame x s).2.2.2.2.2.2.2.2.2.2.2.2.2.2.2.2.2.2.2.2.2.2.2.2.2.2.2.2.2.1
@[simp] theorem controlEv_tGpsYaw (x : In) (s : St) : (controlEv x s).tGpsYaw = s.tGpsYaw := (controlEv_frame x s).2.2.2.2.2.2.2.2.2.2.2.2.2.2.2.2.2.2.2.2.2.2.2.2.2.2.2.2.2.2.1
@[simp] theorem controlEv_synth (x : In) (s : St) : (controlEv x s).synth = s.synth := (controlEv_frame x s).2.2.2.2.2.2.2.2.2.2.2.2.2.2.2.2.2.2.2.2.2.2.2.2.2.2.2.2.2.2.2.1
@[simp] theorem controlEv_flowReady (x : In) (s : St) : (controlEv x s).flowReady = s.flowReady := (controlEv_frame x s).2.2.2.2.2.2.2.2.2.2.2.2.2.2.2.2.2.2.2.2.2.2.2.2.2.2.2.2.2.2.2.2.1
@[simp] theorem controlEv_flowInh (x : In) (s : St) : (controlEv x s).flowInh = s.flowInh := (controlEv_frame x s).2.2.2.2.2.2.2.2.2.2.2.2.2.2.2.2.2.2.2.2.2.2.2.2.2.2.2.2.2.2.2.2.2.1
@[simp] theorem controlEv_tGood (x : In) (s : St) : (controlEv x s).tGood = s.tGood := (controlEv_frame x s).2.2.2.2.2.2.2.2.2.2.2.2.2.2.2.2.2.2.2.2.2.2.2.2.2.2.2.2.2.2.2.2.2.2.1
@[simp] theorem controlEv_tBad (x : In) (s : St) : (controlEv x s).tBad = s.tBad := (controlEv_frame x s).2.2.2.2.2.2.2.2.2.2.2.2.2.2.2.2.2.2.2.2.2.2.2.2.2.2.2.2.2.2.2.2.2.2.2

theorem controlAir_frame (x : In) (s : St) :
    (controlAir x s).tilt = s.tilt ∧ (controlAir x s).yawAlign = s.yawAlign ∧ (controlAir x s).gps = s.gps ∧ (controlAir x s).optFlow = s.optFlow ∧ (controlAir x s).magHdg = s.magHdg ∧ (controlAir x s).mag3D = s.mag3D ∧ (controlAir x s).magDec = s.magDec ∧ (controlAir x s).evPos = s.evPos ∧ (controlAir x s).evVel = s.evVel ∧ (controlAir x s).evYaw = s.evYaw ∧ (controlAir x s).gpsYaw = s.gpsYaw ∧ (controlAir x s).magDist = s.magDist ∧ (controlAir x s).magFault = s.magFault ∧ (controlAir x s).magAligned = s.magAligned ∧ (controlAir x s).magYawReq = s.magYawReq ∧ (controlAir x s).magInhReq = s.magInhReq ∧ (controlAir x s).velposReq = s.velposReq ∧ (controlAir x s).inhibited = s.inhibited ∧ (controlAir x s).nonMagPrev = s.nonMagPrev ∧ (controlAir x s).yawObs = s.yawObs ∧ (controlAir x s).biasObs = s.biasObs ∧ (controlAir x s).nBad = s.nBad ∧ (controlAir x s).declCovReset = s.declCovReset ∧ (controlAir x s).tAlign = s.tAlign ∧ (controlAir x s).tMov = s.tMov ∧ (controlAir x s).tNotInh = s.tNotInh ∧ (controlAir x s).tYaw = s.tYaw ∧ (controlAir x s).gpsYawFaulty = s.gpsYawFaulty ∧ (controlAir x s).doGsf = s.doGsf ∧ (controlAir x s).gsfTime = s.gsfTime ∧ (controlAir x s).gsfCount = s.gsfCount ∧ (controlAir x s).tPos = s.tPos ∧ (controlAir x s).tDelpos = s.tDelpos ∧ (controlAir x s).tVel = s.tVel ∧ (controlAir x s).tOf = s.tOf ∧ (controlAir x s).tBeta = s.tBeta ∧ (controlAir x s).tFake = s.tFake ∧ (controlAir x s).tGpsYaw = s.tGpsYaw ∧ (controlAir x s).hposPrev = s.hposPrev ∧ (controlAir x s).hposOdom = s.hposOdom ∧ (controlAir x s).synth = s.synth ∧ (controlAir x s).flowReady = s.flowReady ∧ (controlAir x s).flowInh = s.flowInh ∧ (controlAir x s).tGood = s.tGood ∧ (controlAir x s).tBad = s.tBad := by
  unfold controlAir; (try dsimp only); split_ifs <;> simp [*]
@[simp] theorem controlAir_tilt (x : In) (s : St) : (controlAir x s).tilt = s.tilt := (controlAir_frame x s).1
@[simp] theorem controlAir_yawAlign (x : In) (s : St) : (controlAir x s).yawAlign = s.yawAlign := (controlAir_frame x s).2.1
@[simp] theorem controlAir_gps (x : In) (s : St) : (controlAir x s).gps = s.gps := (controlAir_frame x s).2.2.1
@[simp] theorem controlAir_optFlow (x : In) (s : St) : (controlAir x s).optFlow = s.optFlow := (controlAir_frame x s).2.2.2.1
@[simp] theorem controlAir_magHdg (x : In) (s : St) : (controlAir x s).magHdg = s.magHdg := (controlAir_frame x s).2.2.2.2.1
@[simp] theorem controlAir_mag3D (x : In) (s : St) : (controlAir x s).mag3D = s.mag3D := (controlAir_frame x s).2.2.2.2.2.1
@[simp] theorem controlAir_magDec (x : In) (s : St) : (controlAir x s).magDec = s.magDec := (controlAir_frame x s).2.2.2.2.2.2.1
@[simp] theorem controlAir_evPos (x : In) (s : St) : (controlAir x s).evPos = s.evPos := (controlAir_frame x s).2.2.2.2.2.2.2.1
@[simp] theorem controlAir_evVel (x : In) (s : St) : (controlAir x s).evVel = s.evVel := (controlAir_frame x s).2.2.2.2.2.2.2.2.1
@[simp] theorem controlAir_evYaw (x : In) (s : St) : (controlAir x s).evYaw = s.evYaw := (controlAir_frame x s).2.2.2.2.2.2.2.2.2.1
@[simp] theorem controlAir_gpsYaw (x : In) (s : St) : (controlAir x s).gpsYaw = s.gpsYaw := (controlAir_frame x s).2.2.2.2.2.2.2.2.2.2.1
@[simp] theorem controlAir_magDist (x : In) (s : St) : (controlAir x s).magDist = s.magDist := (controlAir_frame x s).2.2.2.2.2.2.2.2.2.2.2.1
@[simp] theorem controlAir_magFault (x : In) (s : St) : (controlAir x s).magFault = s.magFault := (controlAir_frame x s).2.2.2.2.2.2.2.2.2.2.2.2.1
@[simp] theorem controlAir_magAligned (x : In) (s : St) : (controlAir x s).magAligned = s.magAligned := (controlAir_frame x s).2.2.2.2.2.2.2.2.2.2.2.2.2.1
@[simp] theorem controlAir_magYawReq (x : In) (s : St) : (controlAir x s).magYawReq = s.magYawReq := (controlAir_frame x s).2.2.2.2.2.2.2.2.2.2.2.2.2.2.1
@[simp] theorem controlAir_magInhReq (x : In) (s : St) : (controlAir x s).magInhReq = s.magInhReq := (controlAir_frame x s).2.2.2.2.2.2.2.2.2.2.2.2.2.2.2.1
@[simp] theorem controlAir_velposReq (x : In) (s : St) : (controlAir x s).velposReq = s.velposReq := (controlAir_frame x s).2.2.2.2.2.2.2.2.2.2.2.2.2.2.2.2.1
@[simp] theorem controlAir_inhibited (x : In) (s : St) : (controlAir x s).inhibited = s.inhibited := (controlAir_frame x s).2.2.2.2.2.2.2.2.2.2.2.2.2.2.2.2.2.1
@[simp] theorem controlAir_nonMagPrev (x : In) (s : St) : (controlAir x s).nonMagPrev = s.nonMagPrev := (controlAir_frame x s).2.2.2.2.2.2.2.2.2.2.2.2.2.2.2.2.2.2.1
@[simp] theorem controlAir_yawObs (x : In) (s : St) : (controlAir x s).yawObs = s.yawObs := (controlAir_frame x s).2.2.2.2.2.2.2.2.2.2.2.2.2.2.2.2.2.2.2.1
@[simp] theorem controlAir_biasObs (x : In) (s : St) : (controlAir x s).biasObs = s.biasObs := (controlAir_frame x s).2.2.2.2.2.2.2.2.2.2.2.2.2.2.2.2.2.2.2.2.1
@[simp] theorem controlAir_nBad (x : In) (s : St) : (controlAir x s).nBad = s.nBad := (controlAir_frame x s).2.2.2.2.2.2.2.2.2.2.2.2.2.2.2.2.2.2.2.2.2.1
@[simp] theorem controlAir_declCovReset (x : In) (s : St) : (controlAir x s).declCovReset = s.declCovReset := (controlAir_frame x s).2.2.2.2.2.2.2.2.2.2.2.2.2.2.2.2.2.2.2.2.2.2.1
@[simp] theorem controlAir_tAlign (x : In) (s : St) : (controlAir x s).tAlign = s.tAlign := (controlAir_frame x s).2.2.2.2.2.2.2.2.2.2.2.2.2.2.2.2.2.2.2.2.2.2.2.1
@[simp] theorem controlAir_tMov (x : In) (s : St) : (controlAir x s).tMov = s.tMov := (controlAir_frame x s).2.2.2.2.2.2.2.2.2.2.2.2.2.2.2.2.2.2.2.2.2.2.2.2.1
@[simp] theorem controlAir_tNotInh (x : In) (s : St) : (controlAir x s).tNotInh = s.tNotInh := (controlAir_frame x s).2.2.2.2.2.2.2.2.2.2.2.2.2.2.2.2.2.2.2.2.2.2.2.2.2.1
@[simp] theorem controlAir_tYaw (x : In) (s : St) : (controlAir x s).tYaw = s.tYaw := (controlAir_frame x s).2.2.2.2.2.2.2.2.2.2.2.2.2.2.2.2.2.2.2.2.2.2.2.2.2.2.1
@[simp] theorem controlAir_gpsYawFaulty (x : In) (s : St) : (controlAir x s).gpsYawFaulty = s.gpsYawFaulty := (controlAir_frame x s).2.2.2.2.2.2.2.2.2.2.2.2.2.2.2.2.2.2.2.2.2.2.2.2.2.2.2.1
@[simp] theorem controlAir_doGsf (x : In) (s : St) : (controlAir x s).doGsf = s.doGsf := (controlAir_frame x s).2.2.2.2.2.2.2.2.2.2.2.2.2.2.2.2.2.2.2.2.2.2.2.2.2.2.2.2.1
@[simp] theorem controlAir_gsfTime (x : In) (s : St) : (controlAir x s).gsfTime = s.gsfTime := (controlAir_frame x s).2.2.2.2.2.2.2.2.2.2.2.2.2.2.2.2.2.2.2.2.2.2.2.2.2.2.2.2.2.1
@[simp] theorem controlAir_gsfCount (x : In) (s : St) : (controlAir x s).gsfCount = s.gsfCount := (controlAir_frame x s).2.2.2.2.2.2.2.2.2.2.2.2.2.2.2.2.2.2.2.2.2.2.2.2.2.2.2.2.2.2.1
@[simp] theorem controlAir_tPos (x : In) (s : St) : (controlAir x s).tPos = s.tPos := (controlAir_frame x s).2.2.2.2.2.2.2.2.2.2.2.2.2.2.2.2.2.2.2.2.2.2.2.2.2.2.2.2.2.2.2.1
@[simp] theorem controlAir_tDelpos (x : In) (s : St) : (controlAir x s).tDelpos = s.tDelpos := (controlAir_frame x s).2.2.2.2.2.2.2.2.2.2.2.2.2.2.2.2.2.2.2.2.2.2.2.2.2.2.2.2.2.2.2.2.1
@[simp] theorem controlAir_tVel (x : In) (s : St) : (controlAir x s).tVel = s.tVel := (controlAir_frame x s).2.2.2.2.2.2.2.2.2.2.2.2.2.2.2.2.2.2.2.2.2.2.2.2.2.2.2.2.2.2.2.2.2.1
@[simp] theorem controlAir_tOf (x : In) (s : St) : (controlAir x s).tOf = s.tOf := (controlAir_frame x s).2.2.2.2.2.2.2.2.2.2.2.2.2.2.2.2.2.2.2.2.2.2.2.2.2.2.2.2.2.2.2.2.2.2.1
@[simp] theorem controlAir_tBeta (x : In) (s : St) : (controlAir x s).tBeta = s.tBeta := (controlAir_frame x s).2.2.2.2.2.2.2.2.2.2.2.2.2.2.2.2.2.2.2.2.2.2.2.2.2.2.2.2.2.2.2.2.2.2.2.1
@[simp] theorem controlAir_tFake (x : In) (s : St) : (controlAir x s).tFake = s.tFake := (controlAir_frame x s).2.2.2.2.2.2.2.2.2.2.2.2.2.2.2.2.2.2.2.2.2.2.2.2.2.2.2.2.2.2.2.2.2.2.2.2.1
@[simp] theorem controlAir_tGpsYaw (x : In) (s : St) : (controlAir x s).tGpsYaw = s.tGpsYaw := (controlAir_frame x s).2.2.2.2.2.2.2.2.2.2.2.2.2.2.2.2.2.2.2.2.2.2.2.2.2.2.2.2.2.2.2.2.2.2.2.2.2.1
@[simp] theorem controlAir_hposPrev (x : In) (s : St) : (controlAir x s).hposPrev = s.hposPrev := (controlAir_frame x s).2.2.2.2.2.2.2.2.2.2.2.2.2.2.2.2.2.2.2.2.2.2.2.2.2.2.2.2.2.2.2.2.2.2.2.2.2.2.1
@[simp] theorem controlAir_hposOdom (x : In) (s : St) : (controlAir x s).hposOdom = s.hposOdom := (controlAir_frame x s).2.2.2.2.2.2.2.2.2.2.2.2.2.2.2.2.2.2.2.2.2.2.2.2.2.2.2.2.2.2.2.2.2.2.2.2.2.2.2.1
@[simp] theorem controlAir_synth (x : In) (s : St) : (controlAir x s).synth = s.synth := (controlAir_frame x s).2.2.2.2.2.2.2.2.2.2.2.2.2.2.2.2.2.2.2.2.2.2.2.2.2.2.2.2.2.2.2.2.2.2.2.2.2.2.2.2.1
@[simp] theorem controlAir_flowReady (x : In) (s : St) : (controlAir x s).flowReady = s.flowReady := (controlAir_frame x s).2.2.2.2.2.2.2.2.2.2.2.2.2.2.2.2.2.2.2.2.2.2.2.2.2.2.2.2.2.2.2.2.2.2.2.2.2.2.2.2.2.1
@[simp] theorem controlAir_flowInh (x : In) (s : St) : (controlAir x s).flowInh = s.flowInh := (controlAir_frame x s).2.2.2.2.2.2.2.2.2.2.2.2.2.2.2.2.2.2.2.2.2.2.2.2.2.2.2.2.2.2.2.2.2.2.2.2.2.2.2.2.2.2.1
@[simp] theorem controlAir_tGood (x : In) (s : St) : (controlAir x s).tGood = s.tGood := (controlAir_frame x s).2.2.2.2.2.2.2.2.2.2.2.2.2.2.2.2.2.2.2.2.2.2.2.2.2.2.2.2.2.2.2.2.2.2.2.2.2.2.2.2.2.2.2.1
@[simp] theorem controlAir_tBad (x : In) (s : St) : (controlAir x s).tBad = s.tBad := (controlAir_frame x s).2.2.2.2.2.2.2.2.2.2.2.2.2.2.2.2.2.2.2.2.2.2.2.2.2.2.2.2.2.2.2.2.2.2.2.2.2.2.2.2.2.2.2.2

theorem controlBeta_frame (x : In) (s : St) :
    (controlBeta x s).tilt = s.tilt ∧ (controlBeta x s).yawAlign = s.yawAlign ∧ (controlBeta x s).gps = s.gps ∧ (controlBeta x s).optFlow = s.optFlow ∧ (controlBeta x s).magHdg = s.magHdg ∧ (controlBeta x s).mag3D = s.mag3D ∧ (controlBeta x s).magDec = s.magDec ∧ (controlBeta x s).evPos = s.evPos ∧ (controlBeta x s).evVel = s.evVel ∧ (controlBeta x s).evYaw = s.evYaw ∧ (controlBeta x s).gpsYaw = s.gpsYaw ∧ (controlBeta x s).magDist = s.magDist ∧ (controlBeta x s).magFault = s.magFault ∧ (controlBeta x s).fuseAspd = s.fuseAspd ∧ (controlBeta x s).magAligned = s.magAligned ∧ (controlBeta x s).magYawReq = s.magYawReq ∧ (controlBeta x s).magInhReq = s.magInhReq ∧ (controlBeta x s).velposReq = s.velposReq ∧ (controlBeta x s).inhibited = s.inhibited ∧ (controlBeta x s).nonMagPrev = s.nonMagPrev ∧ (controlBeta x s).yawObs = s.yawObs ∧ (controlBeta x s).biasObs = s.biasObs ∧ (controlBeta x s).nBad = s.nBad ∧ (controlBeta x s).declCovReset = s.declCovReset ∧ (controlBeta x s).tAlign = s.tAlign ∧ (controlBeta x s).tMov = s.tMov ∧ (controlBeta x s).tNotInh = s.tNotInh ∧ (controlBeta x s).tYaw = s.tYaw ∧ (controlBeta x s).gpsYawFaulty = s.gpsYawFaulty ∧ (controlBeta x s).doGsf = s.doGsf ∧ (controlBeta x s).gsfTime = s.gsfTime ∧ (controlBeta x s).gsfCount = s.gsfCount ∧ (controlBeta x s).tPos = s.tPos ∧ (controlBeta x s).tDelpos = s.tDelpos ∧ (controlBeta x s).tVel = s.tVel ∧ (controlBeta x s).tOf = s.tOf ∧ (controlBeta x s).tArsp = s.tArsp ∧ (controlBeta x s).tFake = s.tFake ∧ (controlBeta x s).tGpsYaw = s.tGpsYaw ∧ (controlBeta x s).hposPrev = s.hposPrev ∧ (controlBeta x s).hposOdom = s.hposOdom ∧ (controlBeta x s).synth = s.synth ∧ (controlBeta x s).flowReady = s.flowReady ∧ (controlBeta x s).flowInh = s.flowInh ∧ (controlBeta x s).tGood = s.tGood ∧ (controlBeta x s).tBad = s.tBad := by
  unfold controlBeta; (try dsimp only); split_ifs <;> simp [*]
@[simp] theorem controlBeta_tilt (x : In) (s : St) : (controlBeta x s).tilt = s.tilt := (controlBeta_frame x s).1
@[simp] theorem controlBeta_yawAlign (x : In) (s : St) : (controlBeta x s).yawAlign = s.yawAlign := (controlBeta_frame x s).2.1
@[simp] theorem controlBeta_gps (x : In) (s : St) : (controlBeta x s).gps = s.gps := (controlBeta_frame x s).2.2.1
@[simp] theorem controlBeta_optFlow (x : In) (s : St) : (controlBeta x s).optFlow = s.optFlow := (controlBeta_frame x s).2.2.2.1
@[simp] theorem controlBeta_magHdg (x : In) (s : St) : (controlBeta x s).magHdg = s.magHdg := (controlBeta_frame x s).2.2.2.2.1
@[simp] theorem controlBeta_mag3D (x : In) (s : St) : (controlBeta x s).mag3D = s.mag3D := (controlBeta_frame x s).2.2.2.2.2.1
@[simp] theorem controlBeta_magDec (x : In) (s : St) : (controlBeta x s).magDec = s.magDec := (controlBeta_frame x s).2.2.2.2.2.2.1
@[simp] theorem controlBeta_evPos (x : In) (s : St) : (controlBeta x s).evPos = s.evPos := (controlBeta_frame x s).2.2.2.2.2.2.2.1
@[simp] theorem controlBeta_evVel (x : In) (s : St) : (controlBeta x s).evVel = s.evVel := (controlBeta_frame x s).2.2.2.2.2.2.2.2.1
@[simp] theorem controlBeta_evYaw (x : In) (s : St) : (controlBeta x s).evYaw = s.evYaw := (controlBeta_frame x s).2.2.2.2.2.2.2.2.2.1
@[simp] theorem controlBeta_gpsYaw (x : In) (s : St) : (controlBeta x s).gpsYaw = s.gpsYaw := (controlBeta_frame x s).2.2.2.2.2.2.2.2.2.2.1
@[simp] theorem controlBeta_magDist (x : In) (s : St) : (controlBeta x s).magDist = s.magDist := (controlBeta_frame x s).2.2.2.2.2.2.2.2.2.2.2.1
@[simp] theorem controlBeta_magFault (x : In) (s : St) : (controlBeta x s).magFault = s.magFault := (controlBeta_frame x s).2.2.2.2.2.2.2.2.2.2.2.2.1
@[simp] theorem controlBeta_fuseAspd (x : In) (s : St) : (controlBeta x s).fuseAspd = s.fuseAspd := (controlBeta_frame x s).2.2.2.2.2.2.2.2.2.2.2.2.2.1
@[simp] theorem controlBeta_magAligned (x : In) (s : St) : (controlBeta x s).magAligned = s.magAligned := (controlBeta_frame x s).2.2.2.2.2.2.2.2.2.2.2.2.2.2.1
@[simp] theorem controlBeta_magYawReq (x : In) (s : St) : (controlBeta x s).magYawReq = s.magYawReq := (controlBeta_frame x s).2.2.2.2.2.2.2.2.2.2.2.2.2.2.2.1
@[simp] theorem controlBeta_magInhReq (x : In) (s : St) : (controlBeta x s).magInhReq = s.magInhReq := (controlBeta_frame x s).2.2.2.2.2.2.2.2.2.2.2.2.2.2.2.2.1
@[simp] theorem controlBeta_velposReq (x : In) (s : St) : (controlBeta x s).velposReq = s.velposReq := (controlBeta_frame x s).2.2.2.2.2.2.2.2.2.2.2.2.2.2.2.2.2.1
@[simp] theorem controlBeta_inhibited (x : In) (s : St) : (controlBeta x s).inhibited = s.inhibited := (controlBeta_frame x s).2.2.2.2.2.2.2.2.2.2.2.2.2.2.2.2.2.2.1
@[simp] theorem controlBeta_nonMagPrev (x : In) (s : St) : (controlBeta x s).nonMagPrev = s.nonMagPrev := (controlBeta_frame x s).2.2.2.2.2.2.2.2.2.2.2.2.2.2.2.2.2.2.2.1
@[simp] theorem controlBeta_yawObs (x : In) (s : St) : (controlBeta x s).yawObs = s.yawObs := (controlBeta_frame x s).2.2.2.2.2.2.2.2.2.2.2.2.2.2.2.2.2.2.2.2.1
@[simp] theorem controlBeta_biasObs (x : In) (s : St) : (controlBeta x s).biasObs = s.biasObs := (controlBeta_frame x s).2.2.2.2.2.2.2.2.2.2.2.2.2.2.2.2.2.2.2.2.2.1
@[simp] theorem controlBeta_nBad (x : In) (s : St) : (controlBeta x s).nBad = s.nBad := (controlBeta_frame x s).2.2.2.2.2.2.2.2.2.2.2.2.2.2.2.2.2.2.2.2.2.2.1
@[simp] theorem controlBeta_declCovReset (x : In) (s : St) : (controlBeta x s).declCovReset = s.declCovReset := (controlBeta_frame x s).2.2.2.2.2.2.2.2.2.2.2.2.2.2.2.2.2.2.2.2.2.2.2.1
@[simp] theorem controlBeta_tAlign (x : In) (s : St) : (controlBeta x s).tAlign = s.tAlign := (controlBeta_frame x s).2.2.2.2.2.2.2.2.2.2.2.2.2.2.2.2.2.2.2.2.2.2.2.2.1
@[simp] theorem controlBeta_tMov (x : In) (s : St) : (controlBeta x s).tMov = s.tMov := (controlBeta_frame x s).2.2.2.2.2.2.2.2.2.2.2.2.2.2.2.2.2.2.2.2.2.2.2.2.2.1
@[simp] theorem controlBeta_tNotInh (x : In) (s : St) : (controlBeta x s).tNotInh = s.tNotInh := (controlBeta_frame x s).2.2.2.2.2.2.2.2.2.2.2.2.2.2.2.2.2.2.2.2.2.2.2.2.2.2.1
@[simp] theorem controlBeta_tYaw (x : In) (s : St) : (controlBeta x s).tYaw = s.tYaw := (controlBeta_frame x s).2.2.2.2.2.2.2.2.2.2.2.2.2.2.2.2.2.2.2.2.2.2.2.2.2.2.2.1
@[simp] theorem controlBeta_gpsYawFaulty (x : In) (s : St) : (controlBeta x s).gpsYawFaulty = s.gpsYawFaulty := (controlBeta_frame x s).2.2.2.2.2.2.2.2.2.2.2.2.2.2.2.2.2.2.2.2.2.2.2.2.2.2.2.2.1
@[simp] theorem controlBeta_doGsf (x : In) (s : St) : (controlBeta x s).doGsf = s.doGsf := (controlBeta_frame x s).2.2.2.2.2.2.2.2.2.2.2.2.2.2.2.2.2.2.2.2.2.2.2.2.2.2.2.2.2.1
@[simp] theorem controlBeta_gsfTime (x : In) (s : St) : (controlBeta x s).gsfTime = s.gsfTime := (controlBeta_frame x s).2.2.2.2.2.2.2.2.2.2.2.2.2.2.2.2.2.2.2.2.2.2.2.2.2.2.2.2.2.2.1
@[simp] theorem controlBeta_gsfCount (x : In) (s : St) : (controlBeta x s).gsfCount = s.gsfCount := (controlBeta_frame x s).2.2.2.2.2.2.2.2.2.2.2.2.2.2.2.2.2.2.2.2.2.2.2.2.2.2.2.2.2.2.2.1
@[simp] theorem controlBeta_tPos (x : In) (s : St) : (controlBeta x s).tPos = s.tPos := (controlBeta_frame x s).2.2.2.2.2.2.2.2.2.2.2.2.2.2.2.2.2.2.2.2.2.2.2.2.2.2.2.2.2.2.2.2.1
@[simp] theorem controlBeta_tDelpos (x : In) (s : St) : (controlBeta x s).tDelpos = s.tDelpos := (controlBeta_frame x s).2.2.2.2.2.2.2.2.2.2.2.2.2.2.2.2.2.2.2.2.2.2.2.2.2.2.2.2.2.2.2.2.2.1
@[simp] theorem controlBeta_tVel (x : In) (s : St) : (controlBeta x s).tVel = s.tVel := (controlBeta_frame x s).2.2.2.2.2.2.2.2.2.2.2.2.2.2.2.2.2.2.2.2.2.2.2.2.2.2.2.2.2.2.2.2.2.2.1
@[simp] theorem controlBeta_tOf (x : In) (s : St) : (controlBeta x s).tOf = s.tOf := (controlBeta_frame x s).2.2.2.2.2.2.2.2.2.2.2.2.2.2.2.2.2.2.2.2.2.2.2.2.2.2.2.2.2.2.2.2.2.2.2.1
@[simp] theorem controlBeta_tArsp (x : In) (s : St) : (controlBeta x s).tArsp = s.tArsp := (controlBeta_frame x s).2.2.2.2.2.2.2.2.2.2.2.2.2.2.2.2.2.2.2.2.2.2.2.2.2.2.2.2.2.2.2.2.2.2.2.2.1
@[simp] theorem controlBeta_tFake (x : In) (s : St) : (controlBeta x s).tFake = s.tFake := (controlBeta_frame x s).2.2.2.2.2.2.2.2.2.2.2.2.2.2.2.2.2.2.2.2.2.2.2.2.2.2.2.2.2.2.2.2.2.2.2.2.2.1
@[simp] theorem controlBeta_tGpsYaw (x : In) (s : St) : (controlBeta x s).tGpsYaw = s.tGpsYaw := (controlBeta_frame x s).2.2.2.2.2.2.2.2.2.2.2.2.2.2.2.2.2.2.2.2.2.2.2.2.2.2.2.2.2.2.2.2.2.2.2.2.2.2.1
@[simp] theorem controlBeta_hposPrev (x : In) (s : St) : (controlBeta x s).hposPrev = s.hposPrev := (controlBeta_frame x s).2.2.2.2.2.2.2.2.2.2.2.2.2.2.2.2.2.2.2.2.2.2.2.2.2.2.2.2.2.2.2.2.2.2.2.2.2.2.2.1
@[simp] theorem controlBeta_hposOdom (x : In) (s : St) : (controlBeta x s).hposOdom = s.hposOdom := (controlBeta_frame x s).2.2.2.2.2.2.2.2.2.2.2.2.2.2.2.2.2.2.2.2.2.2.2.2.2.2.2.2.2.2.2.2.2.2.2.2.2.2.2.2.1
@[simp] theorem controlBeta_synth (x : In) (s : St) : (controlBeta x s).synth = s.synth := (controlBeta_frame x s).2.2.2.2.2.2.2.2.2.2.2.2.2.2.2.2.2.2.2.2.2.2.2.2.2.2.2.2.2.2.2.2.2.2.2.2.2.2.2.2.2.1
@[simp] theorem controlBeta_flowReady (x : In) (s : St) : (controlBeta x s).flowReady = s.flowReady := (controlBeta_frame x s).2.2.2.2.2.2.2.2.2.2.2.2.2.2.2.2.2.2.2.2.2.2.2.2.2.2.2.2.2.2.2.2.2.2.2.2.2.2.2.2.2.2.1
@[simp] theorem controlBeta_flowInh (x : In) (s : St) : (controlBeta x s).flowInh = s.flowInh := (controlBeta_frame x s).2.2.2.2.2.2.2.2.2.2.2.2.2.2.2.2.2.2.2.2.2.2.2.2.2.2.2.2.2.2.2.2.2.2.2.2.2.2.2.2.2.2.2.1
@[simp] theorem controlBeta_tGood (x : In) (s : St) : (controlBeta x s).tGood = s.tGood := (controlBeta_frame x s).2.2.2.2.2.2.2.2.2.2.2.2.2.2.2.2.2.2.2.2.2.2.2.2.2.2.2.2.2.2.2.2.2.2.2.2.2.2.2.2.2.2.2.2.1
@[simp] theorem controlBeta_tBad (x : In) (s : St) : (controlBeta x s).tBad = s.tBad := (controlBeta_frame x s).2.2.2.2.2.2.2.2.2.2.2.2.2.2.2.2.2.2.2.2.2.2.2.2.2.2.2.2.2.2.2.2.2.2.2.2.2.2.2.2.2.2.2.2.2

theorem controlDrag_frame (x : In) (s : St) :
    (controlDrag x s).tilt = s.tilt ∧ (controlDrag x s).yawAlign = s.yawAlign ∧ (controlDrag x s).gps = s.gps ∧ (controlDrag x s).optFlow = s.optFlow ∧ (controlDrag x s).magHdg = s.magHdg ∧ (controlDrag x s).mag3D = s.mag3D ∧ (controlDrag x s).magDec = s.magDec ∧ (controlDrag x s).evPos = s.evPos ∧ (controlDrag x s).evVel = s.evVel ∧ (controlDrag x s).evYaw = s.evYaw ∧ (controlDrag x s).gpsYaw = s.gpsYaw ∧ (controlDrag x s).magDist = s.magDist ∧ (controlDrag x s).magFault = s.magFault ∧ (controlDrag x s).fuseAspd = s.fuseAspd ∧ (controlDrag x s).magAligned = s.magAligned ∧ (controlDrag x s).magYawReq = s.magYawReq ∧ (controlDrag x s).magInhReq = s.magInhReq ∧ (controlDrag x s).velposReq = s.velposReq ∧ (controlDrag x s).inhibited = s.inhibited ∧ (controlDrag x s).nonMagPrev = s.nonMagPrev ∧ (controlDrag x s).yawObs = s.yawObs ∧ (controlDrag x s).biasObs = s.biasObs ∧ (controlDrag x s).nBad = s.nBad ∧ (controlDrag x s).declCovReset = s.declCovReset ∧ (controlDrag x s).tAlign = s.tAlign ∧ (controlDrag x s).tMov = s.tMov ∧ (controlDrag x s).tNotInh = s.tNotInh ∧ (controlDrag x s).tYaw = s.tYaw ∧ (controlDrag x s).gpsYawFaulty = s.gpsYawFaulty ∧ (controlDrag x s).doGsf = s.doGsf ∧ (controlDrag x s).gsfTime = s.gsfTime ∧ (controlDrag x s).gsfCount = s.gsfCount ∧ (controlDrag x s).tPos = s.tPos ∧ (controlDrag x s).tDelpos = s.tDelpos ∧ (controlDrag x s).tVel = s.tVel ∧ (controlDrag x s).tOf = s.tOf ∧ (controlDrag x s).tBeta = s.tBeta ∧ (controlDrag x s).tArsp = s.tArsp ∧ (controlDrag x s).tFake = s.tFake ∧ (controlDrag x s).tGpsYaw = s.tGpsYaw ∧ (controlDrag x s).hposPrev = s.hposPrev ∧ (controlDrag x s).hposOdom = s.hposOdom ∧ (controlDrag x s).synth = s.synth ∧ (controlDrag x s).flowReady = s.flowReady ∧ (controlDrag x s).flowInh = s.flowInh ∧ (controlDrag x s).tGood = s.tGood ∧ (controlDrag x s).tBad = s.tBad := by
  unfold controlDrag; (try dsimp only); split_ifs <;> simp [*]
@[simp] theorem controlDrag_tilt (x : In) (s : St) : (controlDrag x s).tilt = s.tilt := (controlDrag_frame x s).1
@[simp] theorem controlDrag_yawAlign (x : In) (s : St) : (controlDrag x s).yawAlign = s.yawAlign := (controlDrag_frame x s).2.1
@[simp] theorem controlDrag_gps (x : In) (s : St) : (controlDrag x s).gps = s.gps := (controlDrag_frame x s).2.2.1
@[simp] theorem controlDrag_optFlow (x : In) (s : St) : (controlDrag x s).optFlow = s.optFlow := (controlDrag_frame x s).2.2.2.1
@[simp] theorem controlDrag_magHdg (x : In) (s : St) : (controlDrag x s).magHdg = s.magHdg := (controlDrag_frame x s).2.2.2.2.1
@[simp] theorem controlDrag_mag3D (x : In) (s : St) : (controlDrag x s).mag3D = s.mag3D := (controlDrag_frame x s).2.2.2.2.2.1
@[simp] theorem controlDrag_magDec (x : In) (s : St) : (controlDrag x s).magDec = s.magDec := (controlDrag_frame x s).2.2.2.2.2.2.1
@[simp] theorem controlDrag_evPos (x : In) (s : St) : (controlDrag x s).evPos = s.evPos := (controlDrag_frame x s).2.2.2.2.2.2.2.1
@[simp] theorem controlDrag_evVel (x : In) (s : St) : (controlDrag x s).evVel = s.evVel := (controlDrag_frame x s).2.2.2.2.2.2.2.2.1
@[simp] theorem controlDrag_evYaw (x : In) (s : St) : (controlDrag x s).evYaw = s.evYaw := (controlDrag_frame x s).2.2.2.2.2.2.2.2.2.1
@[simp] theorem controlDrag_gpsYaw (x : In) (s : St) : (controlDrag x s).gpsYaw = s.gpsYaw := (controlDrag_frame x s).2.2.2.2.2.2.2.2.2.2.1
@[simp] theorem controlDrag_magDist (x : In) (s : St) : (controlDrag x s).magDist = s.magDist := (controlDrag_frame x s).2.2.2.2.2.2.2.2.2.2.2.1
@[simp] theorem controlDrag_magFault (x : In) (s : St) : (controlDrag x s).magFault = s.magFault := (controlDrag_frame x s).2.2.2.2.2.2.2.2.2.2.2.2.1
@[simp] theorem controlDrag_fuseAspd (x : In) (s : St) : (controlDrag x s).fuseAspd = s.fuseAspd := (controlDrag_frame x s).2.2.2.2.2.2.2.2.2.2.2.2.2.1
@[simp] theorem controlDrag_magAligned (x : In) (s : St) : (controlDrag x s).magAligned = s.magAligned := (controlDrag_frame x s).2.2.2.2.2.2.2.2.2.2.2.2.2.2.1
@[simp] theorem controlDrag_magYawReq (x : In) (s : St) : (controlDrag x s).magYawReq = s.magYawReq := (controlDrag_frame x s).2.2.2.2.2.2.2.2.2.2.2.2.2.2.2.1
@[simp] theorem controlDrag_magInhReq (x : In) (s : St) : (controlDrag x s).magInhReq = s.magInhReq := (controlDrag_frame x s).2.2.2.2.2.2.2.2.2.2.2.2.2.2.2.2.1
@[simp] theorem controlDrag_velposReq (x : In) (s : St) : (controlDrag x s).velposReq = s.velposReq := (controlDrag_frame x s).2.2.2.2.2.2.2.2.2.2.2.2.2.2.2.2.2.1
@[simp] theorem controlDrag_inhibited (x : In) (s : St) : (controlDrag x s).inhibited = s.inhibited := (controlDrag_frame x s).2.2.2.2.2.2.2.2.2.2.2.2.2.2.2.2.2.2.1
@[simp] theorem controlDrag_nonMagPrev (x : In) (s : St) : (controlDrag x s).nonMagPrev = s.nonMagPrev := (controlDrag_frame x s).2.2.2.2.2.2.2.2.2.2.2.2.2.2.2.2.2.2.2.1
@[simp] theorem controlDrag_yawObs (x : In) (s : St) : (controlDrag x s).yawObs = s.yawObs := (controlDrag_frame x s).2.2.2.2.2.2.2.2.2.2.2.2.2.2.2.2.2.2.2.2.1
@[simp] theorem controlDrag_biasObs (x : In) (s : St) : (controlDrag x s).biasObs = s.biasObs := (controlDrag_frame x s).2.2.2.2.2.2.2.2.2.2.2.2.2.2.2.2.2.2.2.2.2.1
@[simp] theorem controlDrag_nBad (x : In) (s : St) : (controlDrag x s).nBad = s.nBad := (controlDrag_frame x s).2.2.2.2.2.2.2.2.2.2.2.2.2.2.2.2.2.2.2.2.2.2.1
@[simp] theorem controlDrag_declCovReset (x : In) (s : St) : (controlDrag x s).declCovReset = s.declCovReset := (controlDrag_frame x s).2.2.2.2.2.2.2.2.2.2.2.2.2.2.2.2.2.2.2.2.2.2.2.1
@[simp] theorem controlDrag_tAlign (x : In) (s : St) : (controlDrag x s).tAlign = s.tAlign := (controlDrag_frame x s).2.2.2.2.2.2.2.2.2.2.2.2.2.2.2.2.2.2.2.2.2.2.2.2.1
@[simp] theorem controlDrag_tMov (x : In) (s : St) : (controlDrag x s).tMov = s.tMov := (controlDrag_frame x s).2.2.2.2.2.2.2.2.2.2.2.2.2.2.2.2.2.2.2.2.2.2.2.2.2.1
@[simp] theorem controlDrag_tNotInh (x : In) (s : St) : (controlDrag x s).tNotInh = s.tNotInh := (controlDrag_frame x s).2.2.2.2.2.2.2.2.2.2.2.2.2.2.2.2.2.2.2.2.2.2.2.2.2.2.1
@[simp] theorem controlDrag_tYaw (x : In) (s : St) : (controlDrag x s).tYaw = s.tYaw := (controlDrag_frame x s).2.2.2.2.2.2.2.2.2.2.2.2.2.2.2.2.2.2.2.2.2.2.2.2.2.2.2.1
@[simp] theorem controlDrag_gpsYawFaulty (x : In) (s : St) : (controlDrag x s).gpsYawFaulty = s.gpsYawFaulty := (controlDrag_frame x s).2.2.2.2.2.2.2.2.2.2.2.2.2.2.2.2.2.2.2.2.2.2.2.2.2.2.2.2.1
@[simp] theorem controlDrag_doGsf (x : In) (s : St) : (controlDrag x s).doGsf = s.doGsf := (controlDrag_frame x s).2.2.2.2.2.2.2.2.2.2.2.2.2.2.2.2.2.2.2.2.2.2.2.2.2.2.2.2.2.1
@[simp] theorem controlDrag_gsfTime (x : In) (s : St) : (controlDrag x s).gsfTime = s.gsfTime := (controlDrag_frame x s).2.2.2.2.2.2.2.2.2.2.2.2.2.2.2.2.2.2.2.2.2.2.2.2.2.2.2.2.2.2.1
@[simp] theorem controlDrag_gsfCount (x : In) (s : St) : (controlDrag x s).gsfCount = s.gsfCount := (controlDrag_frame x s).2.2.2.2.2.2.2.2.2.2.2.2.2.2.2.2.2.2.2.2.2.2.2.2.2.2.2.2.2.2.2.1
@[simp] theorem controlDrag_tPos (x : In) (s : St) : (controlDrag x s).tPos = s.tPos := (controlDrag_frame x s).2.2.2.2.2.2.2.2.2.2.2.2.2.2.2.2.2.2.2.2.2.2.2.2.2.2.2.2.2.2.2.2.1
@[simp] theorem controlDrag_tDelpos (x : In) (s : St) : (controlDrag x s).tDelpos = s.tDelpos := (controlDrag_frame x s).2.2.2.2.2.2.2.2.2.2.2.2.2.2.2.2.2.2.2.2.2.2.2.2.2.2.2.2.2.2.2.2.2.1
@[simp] theorem controlDrag_tVel (x : In) (s : St) : (controlDrag x s).tVel = s.tVel := (controlDrag_frame x s).2.2.2.2.2.2.2.2.2.2.2.2.2.2.2.2.2.2.2.2.2.2.2.2.2.2.2.2.2.2.2.2.2.2.1
@[simp] theorem controlDrag_tOf (x : In) (s : St) : (controlDrag x s).tOf = s.tOf := (controlDrag_frame x s).2.2.2.2.2.2.2.2.2.2.2.2.2.2.2.2.2.2.2.2.2.2.2.2.2.2.2.2.2.2.2.2.2.2.2.1
@[simp] theorem controlDrag_tBeta (x : In) (s : St) : (controlDrag x s).tBeta = s.tBeta := (controlDrag_frame x s).2.2.2.2.2.2.2.2.2.2.2.2.2.2.2.2.2.2.2.2.2.2.2.2.2.2.2.2.2.2.2.2.2.2.2.2.1
@[simp] theorem controlDrag_tArsp (x : In) (s : St) : (controlDrag x s).tArsp = s.tArsp := (controlDrag_frame x s).2.2.2.2.2.2.2.2.2.2.2.2.2.2.2.2.2.2.2.2.2.2.2.2.2.2.2.2.2.2.2.2.2.2.2.2.2.1
@[simp] theorem controlDrag_tFake (x : In) (s : St) : (controlDrag x s).tFake = s.tFake := (controlDrag_frame x s).2.2.2.2.2.2.2.2.2.2.2.2.2.2.2.2.2.2.2.2.2.2.2.2.2.2.2.2.2.2.2.2.2.2.2.2.2.2.1
@[simp] theorem controlDrag_tGpsYaw (x : In) (s : St) : (controlDrag x s).tGpsYaw = s.tGpsYaw := (controlDrag_frame x s).2.2.2.2.2.2.2.2.2.2.2.2.2.2.2.2.2.2.2.2.2.2.2.2.2.2.2.2.2.2.2.2.2.2.2.2.2.2.2.1
@[simp] theorem controlDrag_hposPrev (x : In) (s : St) : (controlDrag x s).hposPrev = s.hposPrev := (controlDrag_frame x s).2.2.2.2.2.2.2.2.2.2.2.2.2.2.2.2.2.2.2.2.2.2.2.2.2.2.2.2.2.2.2.2.2.2.2.2.2.2.2.2.1
@[simp] theorem controlDrag_hposOdom (x : In) (s : St) : (controlDrag x s).hposOdom = s.hposOdom := (controlDrag_frame x s).2.2.2.2.2.2.2.2.2.2.2.2.2.2.2.2.2.2.2.2.2.2.2.2.2.2.2.2.2.2.2.2.2.2.2.2.2.2.2.2.2.1
@[simp] theorem controlDrag_synth (x : In) (s : St) : (controlDrag x s).synth = s.synth := (controlDrag_frame x s).2.2.2.2.2.2.2.2.2.2.2.2.2.2.2.2.2.2.2.2.2.2.2.2.2.2.2.2.2.2.2.2.2.2.2.2.2.2.2.2.2.2.1
@[simp] theorem controlDrag_flowReady (x : In) (s : St) : (controlDrag x s).flowReady = s.flowReady := (controlDrag_frame x s).2.2.2.2.2.2.2.2.2.2.2.2.2.2.2.2.2.2.2.2.2.2.2.2.2.2.2.2.2.2.2.2.2.2.2.2.2.2.2.2.2.2.2.1
@[simp] theorem controlDrag_flowInh (x : In) (s : St) : (controlDrag x s).flowInh = s.flowInh := (controlDrag_frame x s).2.2.2.2.2.2.2.2.2.2.2.2.2.2.2.2.2.2.2.2.2.2.2.2.2.2.2.2.2.2.2.2.2.2.2.2.2.2.2.2.2.2.2.2.1
@[simp] theorem controlDrag_tGood (x : In) (s : St) : (controlDrag x s).tGood = s.tGood := (controlDrag_frame x s).2.2.2.2.2.2.2.2.2.2.2.2.2.2.2.2.2.2.2.2.2.2.2.2.2.2.2.2.2.2.2.2.2.2.2.2.2.2.2.2.2.2.2.2.2.1
@[simp] theorem controlDrag_tBad (x : In) (s : St) : (controlDrag x s).tBad = s.tBad := (controlDrag_frame x s).2.2.2.2.2.2.2.2.2.2.2.2.2.2.2.2.2.2.2.2.2.2.2.2.2.2.2.2.2.2.2.2.2.2.2.2.2.2.2.2.2.2.2.2.2.2

theorem controlAux_frame (x : In) (s : St) :
    (controlAux x s).tilt = s.tilt ∧ (controlAux x s).yawAlign = s.yawAlign ∧ (controlAux x s).gps = s.gps ∧ (controlAux x s).optFlow = s.optFlow ∧ (controlAux x s).magHdg = s.magHdg ∧ (controlAux x s).mag3D = s.mag3D ∧ (controlAux x s).magDec = s.magDec ∧ (controlAux x s).wind = s.wind ∧ (controlAux x s).evPos = s.evPos ∧ (controlAux x s).evVel = s.evVel ∧ (controlAux x s).evYaw = s.evYaw ∧ (controlAux x s).gpsYaw = s.gpsYaw ∧ (controlAux x s).magDist = s.magDist ∧ (controlAux x s).magFault = s.magFault ∧ (controlAux x s).fuseAspd = s.fuseAspd ∧ (controlAux x s).magAligned = s.magAligned ∧ (controlAux x s).magYawReq = s.magYawReq ∧ (controlAux x s).magInhReq = s.magInhReq ∧ (controlAux x s).velposReq = s.velposReq ∧ (controlAux x s).inhibited = s.inhibited ∧ (controlAux x s).nonMagPrev = s.nonMagPrev ∧ (controlAux x s).yawObs = s.yawObs ∧ (controlAux x s).biasObs = s.biasObs ∧ (controlAux x s).nBad = s.nBad ∧ (controlAux x s).declCovReset = s.declCovReset ∧ (controlAux x s).tAlign = s.tAlign ∧ (controlAux x s).tMov = s.tMov ∧ (controlAux x s).tNotInh = s.tNotInh ∧ (controlAux x s).tYaw = s.tYaw ∧ (controlAux x s).gpsYawFaulty = s.gpsYawFaulty ∧ (controlAux x s).doGsf = s.doGsf ∧ (controlAux x s).gsfTime = s.gsfTime ∧ (controlAux x s).gsfCount = s.gsfCount ∧ (controlAux x s).tPos = s.tPos ∧ (controlAux x s).tDelpos = s.tDelpos ∧ (controlAux x s).tOf = s.tOf ∧ (controlAux x s).tBeta = s.tBeta ∧ (controlAux x s).tArsp = s.tArsp ∧ (controlAux x s).tFake = s.tFake ∧ (controlAux x s).tGpsYaw = s.tGpsYaw ∧ (controlAux x s).hposPrev = s.hposPrev ∧ (controlAux x s).hposOdom = s.hposOdom ∧ (controlAux x s).synth = s.synth ∧ (controlAux x s).flowReady = s.flowReady ∧ (controlAux x s).flowInh = s.flowInh ∧ (controlAux x s).tGood = s.tGood ∧ (controlAux x s).tBad = s.tBad := by
  unfold controlAux; (try dsimp only); split_ifs <;> simp [*]
@[simp] theorem controlAux_tilt (x : In) (s : St) : (controlAux x s).tilt = s.tilt := (controlAux_frame x s).1
@[simp] theorem controlAux_yawAlign (x : In) (s : St) : (controlAux x s).yawAlign = s.yawAlign := (controlAux_frame x s).2.1
@[simp] theorem controlAux_gps (x : In) (s : St) : (controlAux x s).gps = s.gps := (controlAux_frame x s).2.2.1
@[simp] theorem controlAux_optFlow (x : In) (s : St) : (controlAux x s).optFlow = s.optFlow := (controlAux_frame x s).2.2.2.1
@[simp] theorem controlAux_magHdg (x : In) (s : St) : (controlAux x s).magHdg = s.magHdg := (controlAux_frame x s).2.2.2.2.1
@[simp] theorem controlAux_mag3D (x : In) (s : St) : (controlAux x s).mag3D = s.mag3D := (controlAux_frame x s).2.2.2.2.2.1
@[simp] theorem controlAux_magDec (x : In) (s : St) : (controlAux x s).magDec = s.magDec := (controlAux_frame x s).2.2.2.2.2.2.1
@[simp] theorem controlAux_wind (x : In) (s : St) : (controlAux x s).wind = s.wind := (controlAux_frame x s).2.2.2.2.2.2.2.1
@[simp] theorem controlAux_evPos (x : In) (s : St) : (controlAux x s).evPos = s.evPos := (controlAux_frame x s).2.2.2.2.2.2.2.2.1
@[simp] theorem controlAux_evVel (x : In) (s : St) : (controlAux x s).evVel = s.evVel := (controlAux_frame x s).2.2.2.2.2.2.2.2.2.1
@[simp] theorem controlAux_evYaw (x : In) (s : St) : (controlAux x s).evYaw = s.evYaw := (controlAux_frame x s).2.2.2.2.2.2.2.2.2.2.1
@[simp] theorem controlAux_gpsYaw (x : In) (s : St) : (controlAux x s).gpsYaw = s.gpsYaw := (controlAux_frame x s).2.2.2.2.2.2.2.2.2.2.2.1
@[simp] theorem controlAux_magDist (x : In) (s : St) : (controlAux x s).magDist = s.magDist := (controlAux_frame x s).2.2.2.2.2.2.2.2.2.2.2.2.1
@[simp] theorem controlAux_magFault (x : In) (s : St) : (controlAux x s).magFault = s.magFault := (controlAux_frame x s).2.2.2.2.2.2.2.2.2.2.2.2.2.1
@[simp] theorem controlAux_fuseAspd (x : In) (s : St) : (controlAux x s).fuseAspd = s.fuseAspd := (controlAux_frame x s).2.2.2.2.2.2.2.2.2.2.2.2.2.2.1
@[simp] theorem controlAux_magAligned (x : In) (s : St) : (controlAux x s).magAligned = s.magAligned := (controlAux_frame x s).2.2.2.2.2.2.2.2.2.2.2.2.2.2.2.1
@[simp] theorem controlAux_magYawReq (x : In) (s : St) : (controlAux x s).magYawReq = s.magYawReq := (controlAux_frame x s).2.2.2.2.2.2.2.2.2.2.2.2.2.2.2.2.1
@[simp] theorem controlAux_magInhReq (x : In) (s : St) : (controlAux x s).magInhReq = s.magInhReq := (controlAux_frame x s).2.2.2.2.2.2.2.2.2.2.2.2.2.2.2.2.2.1
@[simp] theorem controlAux_velposReq (x : In) (s : St) : (controlAux x s).velposReq = s.velposReq := (controlAux_frame x s).2.2.2.2.2.2.2.2.2.2.2.2.2.2.2.2.2.2.1
@[simp] theorem controlAux_inhibited (x : In) (s : St) : (controlAux x s).inhibited = s.inhibited := (controlAux_frame x s).2.2.2.2.2.2.2.2.2.2.2.2.2.2.2.2.2.2.2.1
@[simp] theorem controlAux_nonMagPrev (x : In) (s : St) : (controlAux x s).nonMagPrev = s.nonMagPrev := (controlAux_frame x s).2.2.2.2.2.2.2.2.2.2.2.2.2.2.2.2.2.2.2.2.1
@[simp] theorem controlAux_yawObs (x : In) (s : St) : (controlAux x s).yawObs = s.yawObs := (controlAux_frame x s).2.2.2.2.2.2.2.2.2.2.2.2.2.2.2.2.2.2.2.2.2.1
@[simp] theorem controlAux_biasObs (x : In) (s : St) : (controlAux x s).biasObs = s.biasObs := (controlAux_frame x s).2.2.2.2.2.2.2.2.2.2.2.2.2.2.2.2.2.2.2.2.2.2.1
@[simp] theorem controlAux_nBad (x : In) (s : St) : (controlAux x s).nBad = s.nBad := (controlAux_frame x s).2.2.2.2.2.2.2.2.2.2.2.2.2.2.2.2.2.2.2.2.2.2.2.1
@[simp] theorem controlAux_declCovReset (x : In) (s : St) : (controlAux x s).declCovReset = s.declCovReset := (controlAux_frame x s).2.2.2.2.2.2.2.2.2.2.2.2.2.2.2.2.2.2.2.2.2.2.2.2.1
@[simp] theorem controlAux_tAlign (x : In) (s : St) : (controlAux x s).tAlign = s.tAlign := (controlAux_frame x s).2.2.2.2.2.2.2.2.2.2.2.2.2.2.2.2.2.2.2.2.2.2.2.2.2.1
@[simp] theorem controlAux_tMov (x : In) (s : St) : (controlAux x s).tMov = s.tMov := (controlAux_frame x s).2.2.2.2.2.2.2.2.2.2.2.2.2.2.2.2.2.2.2.2.2.2.2.2.2.2.1
@[simp] theorem controlAux_tNotInh (x : In) (s : St) : (controlAux x s).tNotInh = s.tNotInh := (controlAux_frame x s).2.2.2.2.2.2.2.2.2.2.2.2.2.2.2.2.2.2.2.2.2.2.2.2.2.2.2.1
@[simp] theorem controlAux_tYaw (x : In) (s : St) : (controlAux x s).tYaw = s.tYaw := (controlAux_frame x s).2.2.2.2.2.2.2.2.2.2.2.2.2.2.2.2.2.2.2.2.2.2.2.2.2.2.2.2.1
@[simp] theorem controlAux_gpsYawFaulty (x : In) (s : St) : (controlAux x s).gpsYawFaulty = s.gpsYawFaulty := (controlAux_frame x s).2.2.2.2.2.2.2.2.2.2.2.2.2.2.2.2.2.2.2.2.2.2.2.2.2.2.2.2.2.1
@[simp] theorem controlAux_doGsf (x : In) (s : St) : (controlAux x s).doGsf = s.doGsf := (controlAux_frame x s).2.2.2.2.2.2.2.2.2.2.2.2.2.2.2.2.2.2.2.2.2.2.2.2.2.2.2.2.2.2.1
@[simp] theorem controlAux_gsfTime (x : In) (s : St) : (controlAux x s).gsfTime = s.gsfTime := (controlAux_frame x s).2.2.2.2.2.2.2.2.2.2.2.2.2.2.2.2.2.2.2.2.2.2.2.2.2.2.2.2.2.2.2.1
@[simp] theorem controlAux_gsfCount (x : In) (s : St) : (controlAux x s).gsfCount = s.gsfCount := (controlAux_frame x s).2.2.2.2.2.2.2.2.2.2.2.2.2.2.2.2.2.2.2.2.2.2.2.2.2.2.2.2.2.2.2.2.1
@[simp] theorem controlAux_tPos (x : In) (s : St) : (controlAux x s).tPos = s.tPos := (controlAux_frame x s).2.2.2.2.2.2.2.2.2.2.2.2.2.2.2.2.2.2.2.2.2.2.2.2.2.2.2.2.2.2.2.2.2.1
@[simp] theorem controlAux_tDelpos (x : In) (s : St) : (controlAux x s).tDelpos = s.tDelpos := (controlAux_frame x s).2.2.2.2.2.2.2.2.2.2.2.2.2.2.2.2.2.2.2.2.2.2.2.2.2.2.2.2.2.2.2.2.2.2.1
@[simp] theorem controlAux_tOf (x : In) (s : St) : (controlAux x s).tOf = s.tOf := (controlAux_frame x s).2.2.2.2.2.2.2.2.2.2.2.2.2.2.2.2.2.2.2.2.2.2.2.2.2.2.2.2.2.2.2.2.2.2.2.1
@[simp] theorem controlAux_tBeta (x : In) (s : St) : (controlAux x s).tBeta = s.tBeta := (controlAux_frame x s).2.2.2.2.2.2.2.2.2.2.2.2.2.2.2.2.2.2.2.2.2.2.2.2.2.2.2.2.2.2.2.2.2.2.2.2.1
@[simp] theorem controlAux_tArsp (x : In) (s : St) : (controlAux x s).tArsp = s.tArsp := (controlAux_frame x s).2.2.2.2.2.2.2.2.2.2.2.2.2.2.2.2.2.2.2.2.2.2.2.2.2.2.2.2.2.2.2.2.2.2.2.2.2.1
@[simp] theorem controlAux_tFake (x : In) (s : St) : (controlAux x s).tFake = s.tFake := (controlAux_frame x s).2.2.2.2.2.2.2.2.2.2.2.2.2.2.2.2.2.2.2.2.2.2.2.2.2.2.2.2.2.2.2.2.2.2.2.2.2.2.1
@[simp] theorem controlAux_tGpsYaw (x : In) (s : St) : (controlAux x s).tGpsYaw = s.tGpsYaw := (controlAux_frame x s).2.2.2.2.2.2.2.2.2.2.2.2.2.2.2.2.2.2.2.2.2.2.2.2.2.2.2.2.2.2.2.2.2.2.2.2.2.2.2.1
@[simp] theorem controlAux_hposPrev (x : In) (s : St) : (controlAux x s).hposPrev = s.hposPrev := (controlAux_frame x s).2.2.2.2.2.2.2.2.2.2.2.2.2.2.2.2.2.2.2.2.2.2.2.2.2.2.2.2.2.2.2.2.2.2.2.2.2.2.2.2.1
@[simp] theorem controlAux_hposOdom (x : In) (s : St) : (controlAux x s).hposOdom = s.hposOdom := (controlAux_frame x s).2.2.2.2.2.2.2.2.2.2.2.2.2.2.2.2.2.2.2.2.2.2.2.2.2.2.2.2.2.2.2.2.2.2.2.2.2.2.2.2.2.1
@[simp] theorem controlAux_synth (x : In) (s : St) : (controlAux x s).synth = s.synth := (controlAux_frame x s).2.2.2.2.2.2.2.2.2.2.2.2.2.2.2.2.2.2.2.2.2.2.2.2.2.2.2.2.2.2.2.2.2.2.2.2.2.2.2.2.2.2.1
@[simp] theorem controlAux_flowReady (x : In) (s : St) : (controlAux x s).flowReady = s.flowReady := (controlAux_frame x s).2.2.2.2.2.2.2.2.2.2.2.2.2.2.2.2.2.2.2.2.2.2.2.2.2.2.2.2.2.2.2.2.2.2.2.2.2.2.2.2.2.2.2.1
@[simp] theorem controlAux_flowInh (x : In) (s : St) : (controlAux x s).flowInh = s.flowInh := (controlAux_frame x s).2.2.2.2.2.2.2.2.2.2.2.2.2.2.2.2.2.2.2.2.2.2.2.2.2.2.2.2.2.2.2.2.2.2.2.2.2.2.2.2.2.2.2.2.1
@[simp] theorem controlAux_tGood (x : In) (s : St) : (controlAux x s).tGood = s.tGood := (controlAux_frame x s).2.2.2.2.2.2.2.2.2.2.2.2.2.2.2.2.2.2.2.2.2.2.2.2.2.2.2.2.2.2.2.2.2.2.2.2.2.2.2.2.2.2.2.2.2.1
@[simp] theorem controlAux_tBad (x : In) (s : St) : (controlAux x s).tBad = s.tBad := (controlAux_frame x s).2.2.2.2.2.2.2.2.2.2.2.2.2.2.2.2.2.2.2.2.2.2.2.2.2.2.2.2.2.2.2.2.2.2.2.2.2.2.2.2.2.2.2.2.2.2

theorem controlFake_frame (x : In) (s : St) :
    (controlFake x s).tilt = s.tilt ∧ (controlFake x s).yawAlign = s.yawAlign ∧ (controlFake x s).gps = s.gps ∧ (controlFake x s).optFlow = s.optFlow ∧ (controlFake x s).magHdg = s.magHdg ∧ (controlFake x s).mag3D = s.mag3D ∧ (controlFake x s).magDec = s.magDec ∧ (controlFake x s).wind = s.wind ∧ (controlFake x s).evPos = s.evPos ∧ (controlFake x s).evVel = s.evVel ∧ (controlFake x s).evYaw = s.evYaw ∧ (controlFake x s).gpsYaw = s.gpsYaw ∧ (controlFake x s).magDist = s.magDist ∧ (controlFake x s).magFault = s.magFault ∧ (controlFake x s).fuseAspd = s.fuseAspd ∧ (controlFake x s).magAligned = s.magAligned ∧ (controlFake x s).magYawReq = s.magYawReq ∧ (controlFake x s).magInhReq = s.magInhReq ∧ (controlFake x s).velposReq = s.velposReq ∧ (controlFake x s).inhibited = s.inhibited ∧ (controlFake x s).nonMagPrev = s.nonMagPrev ∧ (controlFake x s).yawObs = s.yawObs ∧ (controlFake x s).biasObs = s.biasObs ∧ (controlFake x s).nBad = s.nBad ∧ (controlFake x s).declCovReset = s.declCovReset ∧ (controlFake x s).tAlign = s.tAlign ∧ (controlFake x s).tMov = s.tMov ∧ (controlFake x s).tNotInh = s.tNotInh ∧ (controlFake x s).tYaw = s.tYaw ∧ (controlFake x s).gpsYawFaulty = s.gpsYawFaulty ∧ (controlFake x s).doGsf = s.doGsf ∧ (controlFake x s).gsfTime = s.gsfTime ∧ (controlFake x s).gsfCount = s.gsfCount ∧ (controlFake x s).tVel = s.tVel ∧ (controlFake x s).tOf = s.tOf ∧ (controlFake x s).tBeta = s.tBeta ∧ (controlFake x s).tArsp = s.tArsp ∧ (controlFake x s).tGpsYaw = s.tGpsYaw ∧ (controlFake x s).flowReady = s.flowReady ∧ (controlFake x s).flowInh = s.flowInh ∧ (controlFake x s).tGood = s.tGood ∧ (controlFake x s).tBad = s.tBad := by
  unfold controlFake; (try dsimp only); split_ifs <;> simp [*]
@[simp] theorem controlFake_tilt (x : In) (s : St) : (controlFake x s).tilt = s.tilt := (controlFake_frame x s).1
@[simp] theorem controlFake_yawAlign (x : In) (s : St) : (controlFake x s).yawAlign = s.yawAlign := (controlFake_frame x s).2.1
@[simp] theorem controlFake_gps (x : In) (s : St) : (controlFake x s).gps = s.gps := (controlFake_frame x s).2.2.1
@[simp] theorem controlFake_optFlow (x : In) (s : St) : (controlFake x s).optFlow = s.optFlow := (controlFake_frame x s).2.2.2.1
@[simp] theorem controlFake_magHdg (x : In) (s : St) : (controlFake x s).magHdg = s.magHdg := (controlFake_frame x s).2.2.2.2.1
@[simp] theorem controlFake_mag3D (x : In) (s : St) : (controlFake x s).mag3D = s.mag3D := (controlFake_frame x s).2.2.2.2.2.1
@[simp] theorem controlFake_magDec (x : In) (s : St) : (controlFake x s).magDec = s.magDec := (controlFake_frame x s).2.2.2.2.2.2.1
@[simp] theorem controlFake_wind (x : In) (s : St) : (controlFake x s).wind = s.wind := (controlFake_frame x s).2.2.2.2.2.2.2.1
@[simp] theorem controlFake_evPos (x : In) (s : St) : (controlFake x s).evPos = s.evPos := (controlFake_frame x s).2.2.2.2.2.2.2.2.1
@[simp] theorem controlFake_evVel (x : In) (s : St) : (controlFake x s).evVel = s.evVel := (controlFake_frame x s).2.2.2.2.2.2.2.2.2.1
@[simp] theorem controlFake_evYaw (x : In) (s : St) : (controlFake x s).evYaw = s.evYaw := (controlFake_frame x s).2.2.2.2.2.2.2.2.2.2.1
@[simp] theorem controlFake_gpsYaw (x : In) (s : St) : (controlFake x s).gpsYaw = s.gpsYaw := (controlFake_frame x s).2.2.2.2.2.2.2.2.2.2.2.1
@[simp] theorem controlFake_magDist (x : In) (s : St) : (controlFake x s).magDist = s.magDist := (controlFake_frame x s).2.2.2.2.2.2.2.2.2.2.2.2.1
@[simp] theorem controlFake_magFault (x : In) (s : St) : (controlFake x s).magFault = s.magFault := (controlFake_frame x s).2.2.2.2.2.2.2.2.2.2.2.2.2.1
@[simp] theorem controlFake_fuseAspd (x : In) (s : St) : (controlFake x s).fuseAspd = s.fuseAspd := (controlFake_frame x s).2.2.2.2.2.2.2.2.2.2.2.2.2.2.1
@[simp] theorem controlFake_magAligned (x : In) (s : St) : (controlFake x s).magAligned = s.magAligned := (controlFake_frame x s).2.2.2.2.2.2.2.2.2.2.2.2.2.2.2.1
@[simp] theorem controlFake_magYawReq (x : In) (s : St) : (controlFake x s).magYawReq = s.magYawReq := (controlFake_frame x s).2.2.2.2.2.2.2.2.2.2.2.2.2.2.2.2.1
@[simp] theorem controlFake_magInhReq (x : In) (s : St) : (controlFake x s).magInhReq = s.magInhReq := (controlFake_frame x s).2.2.2.2.2.2.2.2.2.2.2.2.2.2.2.2.2.1
@[simp] theorem controlFake_velposReq (x : In) (s : St) : (controlFake x s).velposReq = s.velposReq := (controlFake_frame x s).2.2.2.2.2.2.2.2.2.2.2.2.2.2.2.2.2.2.1
@[simp] theorem controlFake_inhibited (x : In) (s : St) : (controlFake x s).inhibited = s.inhibited := (controlFake_frame x s).2.2.2.2.2.2.2.2.2.2.2.2.2.2.2.2.2.2.2.1
@[simp] theorem controlFake_nonMagPrev (x : In) (s : St) : (controlFake x s).nonMagPrev = s.nonMagPrev := (controlFake_frame x s).2.2.2.2.2.2.2.2.2.2.2.2.2.2.2.2.2.2.2.2.1
@[simp] theorem controlFake_yawObs (x : In) (s : St) : (controlFake x s).yawObs = s.yawObs := (controlFake_frame x s).2.2.2.2.2.2.2.2.2.2.2.2.2.2.2.2.2.2.2.2.2.1
@[simp] theorem controlFake_biasObs (x : In) (s : St) : (controlFake x s).biasObs = s.biasObs := (controlFake_frame x s).2.2.2.2.2.2.2.2.2.2.2.2.2.2.2.2.2.2.2.2.2.2.1
@[simp] theorem controlFake_nBad (x : In) (s : St) : (controlFake x s).nBad = s.nBad := (controlFake_frame x s).2.2.2.2.2.2.2.2.2.2.2.2.2.2.2.2.2.2.2.2.2.2.2.1
@[simp] theorem controlFake_declCovReset (x : In) (s : St) : (controlFake x s).declCovReset = s.declCovReset := (controlFake_frame x s).2.2.2.2.2.2.2.2.2.2.2.2.2.2.2.2.2.2.2.2.2.2.2.2.1
@[simp] theorem controlFake_tAlign (x : In) (s : St) : (controlFake x s).tAlign = s.tAlign := (controlFake_frame x s).2.2.2.2.2.2.2.2.2.2.2.2.2.2.2.2.2.2.2.2.2.2.2.2.2.1
@[simp] theorem controlFake_tMov (x : In) (s : St) : (controlFake x s).tMov = s.tMov := (controlFake_frame x s).2.2.2.2.2.2.2.2.2.2.2.2.2.2.2.2.2.2.2.2.2.2.2.2.2.2.1
@[simp] theorem controlFake_tNotInh (x : In) (s : St) : (controlFake x s).tNotInh = s.tNotInh := (controlFake_frame x s).2.2.2.2.2.2.2.2.2.2.2.2.2.2.2.2.2.2.2.2.2.2.2.2.2.2.2.1
@[simp] theorem controlFake_tYaw (x : In) (s : St) : (controlFake x s).tYaw = s.tYaw := (controlFake_frame x s).2.2.2.2.2.2.2.2.2.2.2.2.2.2.2.2.2.2.2.2.2.2.2.2.2.2.2.2.1
@[simp] theorem controlFake_gpsYawFaulty (x : In) (s : St) : (controlFake x s).gpsYawFaulty = s.gpsYawFaulty := (controlFake_frame x s).2.2.2.2.2.2.2.2.2.2.2.2.2.2.2.2.2.2.2.2.2.2.2.2.2.2.2.2.2.1
@[simp] theorem controlFake_doGsf (x : In) (s : St) : (controlFake x s).doGsf = s.doGsf := (controlFake_frame x s).2.2.2.2.2.2.2.2.2.2.2.2.2.2.2.2.2.2.2.2.2.2.2.2.2.2.2.2.2.2.1
@[simp] theorem controlFake_gsfTime (x : In) (s : St) : (controlFake x s).gsfTime = s.gsfTime := (controlFake_frame x s).2.2.2.2.2.2.2.2.2.2.2.2.2.2.2.2.2.2.2.2.2.2.2.2.2.2.2.2.2.2.2.1
@[simp] theorem controlFake_gsfCount (x : In) (s : St) : (controlFake x s).gsfCount = s.gsfCount := (controlFake_frame x s).2.2.2.2.2.2.2.2.2.2.2.2.2.2.2.2.2.2.2.2.2.2.2.2.2.2.2.2.2.2.2.2.1
@[simp] theorem controlFake_tVel (x : In) (s : St) : (controlFake x s).tVel = s.tVel := (controlFake_frame x s).2.2.2.2.2.2.2.2.2.2.2.2.2.2.2.2.2.2.2.2.2.2.2.2.2.2.2.2.2.2.2.2.2.1
@[simp] theorem controlFake_tOf (x : In) (s : St) : (controlFake x s).tOf = s.tOf := (controlFake_frame x s).2.2.2.2.2.2.2.2.2.2.2.2.2.2.2.2.2.2.2.2.2.2.2.2.2.2.2.2.2.2.2.2.2.2.1
@[simp] theorem controlFake_tBeta (x : In) (s : St) : (controlFake x s).tBeta = s.tBeta := (controlFake_frame x s).2.2.2.2.2.2.2.2.2.2.2.2.2.2.2.2.2.2.2.2.2.2.2.2.2.2.2.2.2.2.2.2.2.2.2.1
@[simp] theorem controlFake_tArsp (x : In) (s : St) : (controlFake x s).tArsp = s.tArsp := (controlFake_frame x s).2.2.2.2.2.2.2.2.2.2.2.2.2.2.2.2.2.2.2.2.2.2.2.2.2.2.2.2.2.2.2.2.2.2.2.2.1
@[simp] theorem controlFake_tGpsYaw (x : In) (s : St) : (controlFake x s).tGpsYaw = s.tGpsYaw := (controlFake_frame x s).2.2.2.2.2.2.2.2.2.2.2.2.2.2.2.2.2.2.2.2.2.2.2.2.2.2.2.2.2.2.2.2.2.2.2.2.2.1
@[simp] theorem controlFake_flowReady (x : In) (s : St) : (controlFake x s).flowReady = s.flowReady := (controlFake_frame x s).2.2.2.2.2.2.2.2.2.2.2.2.2.2.2.2.2.2.2.2.2.2.2.2.2.2.2.2.2.2.2.2.2.2.2.2.2.2.1
@[simp] theorem controlFake_flowInh (x : In) (s : St) : (controlFake x s).flowInh = s.flowInh := (controlFake_frame x s).2.2.2.2.2.2.2.2.2.2.2.2.2.2.2.2.2.2.2.2.2.2.2.2.2.2.2.2.2.2.2.2.2.2.2.2.2.2.2.1
@[simp] theorem controlFake_tGood (x : In) (s : St) : (controlFake x s).tGood = s.tGood := (controlFake_frame x s).2.2.2.2.2.2.2.2.2.2.2.2.2.2.2.2.2.2.2.2.2.2.2.2.2.2.2.2.2.2.2.2.2.2.2.2.2.2.2.2.1
@[simp] theorem controlFake_tBad (x : In) (s : St) : (controlFake x s).tBad = s.tBad := (controlFake_frame x s).2.2.2.2.2.2.2.2.2.2.2.2.2.2.2.2.2.2.2.2.2.2.2.2.2.2.2.2.2.2.2.2.2.2.2.2.2.2.2.2.2

theorem requests_frame (x : In) (s : St) :
    (requests x s).tilt = s.tilt ∧ (requests x s).yawAlign = s.yawAlign ∧ (requests x s).gps = s.gps ∧ (requests x s).optFlow = s.optFlow ∧ (requests x s).magHdg = s.magHdg ∧ (requests x s).mag3D = s.mag3D ∧ (requests x s).magDec = s.magDec ∧ (requests x s).wind = s.wind ∧ (requests x s).evPos = s.evPos ∧ (requests x s).evVel = s.evVel ∧ (requests x s).evYaw = s.evYaw ∧ (requests x s).gpsYaw = s.gpsYaw ∧ (requests x s).magDist = s.magDist ∧ (requests x s).magFault = s.magFault ∧ (requests x s).fuseAspd = s.fuseAspd ∧ (requests x s).magAligned = s.magAligned ∧ (requests x s).magInhReq = s.magInhReq ∧ (requests x s).velposReq = s.velposReq ∧ (requests x s).inhibited = s.inhibited ∧ (requests x s).nonMagPrev = s.nonMagPrev ∧ (requests x s).yawObs = s.yawObs ∧ (requests x s).biasObs = s.biasObs ∧ (requests x s).nBad = s.nBad ∧ (requests x s).declCovReset = s.declCovReset ∧ (requests x s).tAlign = s.tAlign ∧ (requests x s).tMov = s.tMov ∧ (requests x s).tNotInh = s.tNotInh ∧ (requests x s).tYaw = s.tYaw ∧ (requests x s).gpsYawFaulty = s.gpsYawFaulty ∧ (requests x s).gsfCount = s.gsfCount ∧ (requests x s).tPos = s.tPos ∧ (requests x s).tDelpos = s.tDelpos ∧ (requests x s).tVel = s.tVel ∧ (requests x s).tOf = s.tOf ∧ (requests x s).tBeta = s.tBeta ∧ (requests x s).tArsp = s.tArsp ∧ (requests x s).tFake = s.tFake ∧ (requests x s).tGpsYaw = s.tGpsYaw ∧ (requests x s).hposPrev = s.hposPrev ∧ (requests x s).hposOdom = s.hposOdom ∧ (requests x s).synth = s.synth ∧ (requests x s).flowReady = s.flowReady ∧ (requests x s).flowInh = s.flowInh ∧ (requests x s).tGood = s.tGood ∧ (requests x s).tBad = s.tBad := by
  unfold requests; (try dsimp only); split_ifs <;> simp [*]
@[simp] theorem requests_tilt (x : In) (s : St) : (requests x s).tilt = s.tilt := (requests_frame x s).1
@[simp] theorem requests_yawAlign (x : In) (s : St) : (requests x s).yawAlign = s.yawAlign := (requests_frame x s).2.1
@[simp] theorem requests_gps (x : In) (s : St) : (requests x s).gps = s.gps := (requests_frame x s).2.2.1
@[simp] theorem requests_optFlow (x : In) (s : St) : (requests x s).optFlow = s.optFlow := (requests_frame x s).2.2.2.1
@[simp] theorem requests_magHdg (x : In) (s : St) : (requests x s).magHdg = s.magHdg := (requests_frame x s).2.2.2.2.1
@[simp] theorem requests_mag3D (x : In) (s : St) : (requests x s).mag3D = s.mag3D := (requests_frame x s).2.2.2.2.2.1
@[simp] theorem requests_magDec (x : In) (s : St) : (requests x s).magDec = s.magDec := (requests_frame x s).2.2.2.2.2.2.1
@[simp] theorem requests_wind (x : In) (s : St) : (requests x s).wind = s.wind := (requests_frame x s).2.2.2.2.2.2.2.1
@[simp] theorem requests_evPos (x : In) (s : St) : (requests x s).evPos = s.evPos := (requests_frame x s).2.2.2.2.2.2.2.2.1
@[simp] theorem requests_evVel (x : In) (s : St) : (requests x s).evVel = s.evVel := (requests_frame x s).2.2.2.2.2.2.2.2.2.1
@[simp] theorem requests_evYaw (x : In) (s : St) : (requests x s).evYaw = s.evYaw := (requests_frame x s).2.2.2.2.2.2.2.2.2.2.1
@[simp] theorem requests_gpsYaw (x : In) (s : St) : (requests x s).gpsYaw = s.gpsYaw := (requests_frame x s).2.2.2.2.2.2.2.2.2.2.2.1
@[simp] theorem requests_magDist (x : In) (s : St) : (requests x s).magDist = s.magDist := (requests_frame x s).2.2.2.2.2.2.2.2.2.2.2.2.1
@[simp] theorem requests_magFault (x : In) (s : St) : (requests x s).magFault = s.magFault := (requests_frame x s).2.2.2.2.2.2.2.2.2.2.2.2.2.1
@[simp] theorem requests_fuseAspd (x : In) (s : St) : (requests x s).fuseAspd = s.fuseAspd := (requests_frame x s).2.2.2.2.2.2.2.2.2.2.2.2.2.2.1
@[simp] theorem requests_magAligned (x : In) (s : St) : (requests x s).magAligned = s.magAligned := (requests_frame x s).2.2.2.2.2.2.2.2.2.2.2.2.2.2.2.1
@[simp] theorem requests_magInhReq (x : In) (s : St) : (requests x s).magInhReq = s.magInhReq := (requests_frame x s).2.2.2.2.2.2.2.2.2.2.2.2.2.2.2.2.1
@[simp] theorem requests_velposReq (x : In) (s : St) : (requests x s).velposReq = s.velposReq := (requests_frame x s).2.2.2.2.2.2.2.2.2.2.2.2.2.2.2.2.2.1
@[simp] theorem requests_inhibited (x : In) (s : St) : (requests x s).inhibited = s.inhibited := (requests_frame x s).2.2.2.2.2.2.2.2.2.2.2.2.2.2.2.2.2.2.1
@[simp] theorem requests_nonMagPrev (x : In) (s : St) : (requests x s).nonMagPrev = s.nonMagPrev := (requests_frame x s).2.2.2.2.2.2.2.2.2.2.2.2.2.2.2.2.2.2.2.1
@[simp] theorem requests_yawObs (x : In) (s : St) : (requests x s).yawObs = s.yawObs := (requests_frame x s).2.2.2.2.2.2.2.2.2.2.2.2.2.2.2.2.2.2.2.2.1
@[simp] theorem requests_biasObs (x : In) (s : St) : (requests x s).biasObs = s.biasObs := (requests_frame x s).2.2.2.2.2.2.2.2.2.2.2.2.2.2.2.2.2.2.2.2.2.1
@[simp] theorem requests_nBad (x : In) (s : St) : (requests x s).nBad = s.nBad := (requests_frame x s).2.2.2.2.2.2.2.2.2.2.2.2.2.2.2.2.2.2.2.2.2.2.1
@[simp] theorem requests_declCovReset (x : In) (s : St) : (requests x s).declCovReset = s.declCovReset := (requests_frame x s).2.2.2.2.2.2.2.2.2.2.2.2.2.2.2.2.2.2.2.2.2.2.2.1
@[simp] theorem requests_tAlign (x : In) (s : St) : (requests x s).tAlign = s.tAlign := (requests_frame x s).2.2.2.2.2.2.2.2.2.2.2.2.2.2.2.2.2.2.2.2.2.2.2.2.1
@[simp] theorem requests_tMov (x : In) (s : St) : (requests x s).tMov = s.tMov := (requests_frame x s).2.2.2.2.2.2.2.2.2.2.2.2.2.2.2.2.2.2.2.2.2.2.2.2.2.1
@[simp] theorem requests_tNotInh (x : In) (s : St) : (requests x s).tNotInh = s.tNotInh := (requests_frame x s).2.2.2.2.2.2.2.2.2.2.2.2.2.2.2.2.2.2.2.2.2.2.2.2.2.2.1
@[simp] theorem requests_tYaw (x : In) (s : St) : (requests x s).tYaw = s.tYaw := (requests_frame x s).2.2.2.2.2.2.2.2.2.2.2.2.2.2.2.2.2.2.2.2.2.2.2.2.2.2.2.1
@[simp] theorem requests_gpsYawFaulty (x : In) (s : St) : (requests x s).gpsYawFaulty = s.gpsYawFaulty := (requests_frame x s).2.2.2.2.2.2.2.2.2.2.2.2.2.2.2.2.2.2.2.2.2.2.2.2.2.2.2.2.1
@[simp] theorem requests_gsfCount (x : In) (s : St) : (requests x s).gsfCount = s.gsfCount := (requests_frame x s).2.2.2.2.2.2.2.2.2.2.2.2.2.2.2.2.2.2.2.2.2.2.2.2.2.2.2.2.2.1
@[simp] theorem requests_tPos (x : In) (s : St) : (requests x s).tPos = s.tPos := (requests_frame x s).2.2.2.2.2.2.2.2.2.2.2.2.2.2.2.2.2.2.2.2.2.2.2.2.2.2.2.2.2.2.1
@[simp] theorem requests_tDelpos (x : In) (s : St) : (requests x s).tDelpos = s.tDelpos := (requests_frame x s).2.2.2.2.2.2.2.2.2.2.2.2.2.2.2.2.2.2.2.2.2.2.2.2.2.2.2.2.2.2.2.1
@[simp] theorem requests_tVel (x : In) (s : St) : (requests x s).tVel = s.tVel := (requests_frame x s).2.2.2.2.2.2.2.2.2.2.2.2.2.2.2.2.2.2.2.2.2.2.2.2.2.2.2.2.2.2.2.2.1
@[simp] theorem requests_tOf (x : In) (s : St) : (requests x s).tOf = s.tOf := (requests_frame x s).2.2.2.2.2.2.2.2.2.2.2.2.2.2.2.2.2.2.2.2.2.2.2.2.2.2.2.2.2.2.2.2.2.1
@[simp] theorem requests_tBeta (x : In) (s : St) : (requests x s).tBeta = s.tBeta := (requests_frame x s).2.2.2.2.2.2.2.2.2.2.2.2.2.2.2.2.2.2.2.2.2.2.2.2.2.2.2.2.2.2.2.2.2.2.1
@[simp] theorem requests_tArsp (x : In) (s : St) : (requests x s).tArsp = s.tArsp := (requests_frame x s).2.2.2.2.2.2.2.2.2.2.2.2.2.2.2.2.2.2.2.2.2.2.2.2.2.2.2.2.2.2.2.2.2.2.2.1
@[simp] theorem requests_tFake (x : In) (s : St) : (requests x s).tFake = s.tFake := (requests_frame x s).2.2.2.2.2.2.2.2.2.2.2.2.2.2.2.2.2.2.2.2.2.2.2.2.2.2.2.2.2.2.2.2.2.2.2.2.1
@[simp] theorem requests_tGpsYaw (x : In) (s : St) : (requests x s).tGpsYaw = s.tGpsYaw := (requests_frame x s).2.2.2.2.2.2.2.2.2.2.2.2.2.2.2.2.2.2.2.2.2.2.2.2.2.2.2.2.2.2.2.2.2.2.2.2.2.1
@[simp] theorem requests_hposPrev (x : In) (s : St) : (requests x s).hposPrev = s.hposPrev := (requests_frame x s).2.2.2.2.2.2.2.2.2.2.2.2.2.2.2.2.2.2.2.2.2.2.2.2.2.2.2.2.2.2.2.2.2.2.2.2.2.2.1
@[simp] theorem requests_hposOdom (x : In) (s : St) : (requests x s).hposOdom = s.hposOdom := (requests_frame x s).2.2.2.2.2.2.2.2.2.2.2.2.2.2.2.2.2.2.2.2.2.2.2.2.2.2.2.2.2.2.2.2.2.2.2.2.2.2.2.1
@[simp] theorem requests_synth (x : In) (s : St) : (requests x s).synth = s.synth := (requests_frame x s).2.2.2.2.2.2.2.2.2.2.2.2.2.2.2.2.2.2.2.2.2.2.2.2.2.2.2.2.2.2.2.2.2.2.2.2.2.2.2.2.1
@[simp] theorem requests_flowReady (x : In) (s : St) : (requests x s).flowReady = s.flowReady := (requests_frame x s).2.2.2.2.2.2.2.2.2.2.2.2.2.2.2.2.2.2.2.2.2.2.2.2.2.2.2.2.2.2.2.2.2.2.2.2.2.2.2.2.2.1
@[simp] theorem requests_flowInh (x : In) (s : St) : (requests x s).flowInh = s.flowInh := (requests_frame x s).2.2.2.2.2.2.2.2.2.2.2.2.2.2.2.2.2.2.2.2.2.2.2.2.2.2.2.2.2.2.2.2.2.2.2.2.2.2.2.2.2.2.1
@[simp] theorem requests_tGood (x : In) (s : St) : (requests x s).tGood = s.tGood := (requests_frame x s).2.2.2.2.2.2.2.2.2.2.2.2.2.2.2.2.2.2.2.2.2.2.2.2.2.2.2.2.2.2.2.2.2.2.2.2.2.2.2.2.2.2.2.1
@[simp] theorem requests_tBad (x : In) (s : St) : (requests x s).tBad = s.tBad := (requests_frame x s).2.2.2.2.2.2.2.2.2.2.2.2.2.2.2.2.2.2.2.2.2.2.2.2.2.2.2.2.2.2.2.2.2.2.2.2.2.2.2.2.2.2.2.2

theorem tiltAlign_frame (x : In) (s : St) :
    (tiltAlign x s).gps = s.gps ∧ (tiltAlign x s).optFlow = s.optFlow ∧ (tiltAlign x s).magDec = s.magDec ∧ (tiltAlign x s).wind = s.wind ∧ (tiltAlign x s).evPos = s.evPos ∧ (tiltAlign x s).evVel = s.evVel ∧ (tiltAlign x s).evYaw = s.evYaw ∧ (tiltAlign x s).gpsYaw = s.gpsYaw ∧ (tiltAlign x s).magDist = s.magDist ∧ (tiltAlign x s).magFault = s.magFault ∧ (tiltAlign x s).fuseAspd = s.fuseAspd ∧ (tiltAlign x s).magAligned = s.magAligned ∧ (tiltAlign x s).magYawReq = s.magYawReq ∧ (tiltAlign x s).magInhReq = s.magInhReq ∧ (tiltAlign x s).velposReq = s.velposReq ∧ (tiltAlign x s).inhibited = s.inhibited ∧ (tiltAlign x s).nonMagPrev = s.nonMagPrev ∧ (tiltAlign x s).yawObs = s.yawObs ∧ (tiltAlign x s).biasObs = s.biasObs ∧ (tiltAlign x s).nBad = s.nBad ∧ (tiltAlign x s).tMov = s.tMov ∧ (tiltAlign x s).tNotInh = s.tNotInh ∧ (tiltAlign x s).tYaw = s.tYaw ∧ (tiltAlign x s).gpsYawFaulty = s.gpsYawFaulty ∧ (tiltAlign x s).doGsf = s.doGsf ∧ (tiltAlign x s).gsfTime = s.gsfTime ∧ (tiltAlign x s).gsfCount = s.gsfCount ∧ (tiltAlign x s).tPos = s.tPos ∧ (tiltAlign x s).tDelpos = s.tDelpos ∧ (tiltAlign x s).tVel = s.tVel ∧ (tiltAlign x s).tOf = s.tOf ∧ (tiltAlign x s).tBeta = s.tBeta ∧ (tiltAlign x s).tArsp = s.tArsp ∧ (tiltAlign x s).tFake = s.tFake ∧ (tiltAlign x s).tGpsYaw = s.tGpsYaw ∧ (tiltAlign x s).hposPrev = s.hposPrev ∧ (tiltAlign x s).hposOdom = s.hposOdom ∧ (tiltAlign x s).synth = s.synth ∧ (tiltAlign x s).flowReady = s.flowReady ∧ (tiltAlign x s).flowInh = s.flowInh ∧ (tiltAlign x s).tGood = s.tGood ∧ (tiltAlign x s).tBad = s.tBad := by
  unfold tiltAlign; (try dsimp only); split_ifs <;> simp [*]
@[simp] theorem tiltAlign_gps (x : In) (s : St) : (tiltAlign x s).gps = s.gps := (tiltAlign_frame x s).1
@[simp] theorem tiltAlign_optFlow (x : In) (s : St) : (tiltAlign x s).optFlow = s.optFlow := (tiltAlign_frame x s).2.1
@[simp] theorem tiltAlign_magDec (x : In) (s : St) : (tiltAlign x s).magDec = s.magDec := (tiltAlign_frame x s).2.2.1
@[simp] theorem tiltAlign_wind (x : In) (s : St) : (tiltAlign x s).wind = s.wind := (tiltAlign_frame x s).2.2.2.1
@[simp] theorem tiltAlign_evPos (x : In) (s : St) : (tiltAlign x s).evPos = s.evPos := (tiltAlign_frame x s).2.2.2.2.1
@[simp] theorem tiltAlign_evVel (x : In) (s : St) : (tiltAlign x s).evVel = s.evVel := (tiltAlign_frame x s).2.2.2.2.2.1
@[simp] theorem tiltAlign_evYaw (x : In) (s : St) : (tiltAlign x s).evYaw = s.evYaw := (tiltAlign_frame x s).2.2.2.2.2.2.1
@[simp] theorem tiltAlign_gpsYaw (x : In) (s : St) : (tiltAlign x s).gpsYaw = s.gpsYaw := (tiltAlign_frame x s).2.2.2.2.2.2.2.1
@[simp] theorem tiltAlign_magDist (x : In) (s : St) : (tiltAlign x s).magDist = s.magDist := (tiltAlign_frame x s).2.2.2.2.2.2.2.2.1
@[simp] theorem tiltAlign_magFault (x : In) (s : St) : (tiltAlign x s).magFault = s.magFault := (tiltAlign_frame x s).2.2.2.2.2.2.2.2.2.1
@[simp] theorem tiltAlign_fuseAspd (x : In) (s : St) : (tiltAlign x s).fuseAspd = s.fuseAspd := (tiltAlign_frame x s).2.2.2.2.2.2.2.2.2.2.1
@[simp] theorem tiltAlign_magAligned (x : In) (s : St) : (tiltAlign x s).magAligned = s.magAligned := (tiltAlign_frame x s).2.2.2.2.2.2.2.2.2.2.2.1
@[simp] theorem tiltAlign_magYawReq (x : In) (s : St) : (tiltAlign x s).magYawReq = s.magYawReq := (tiltAlign_frame x s).2.2.2.2.2.2.2.2.2.2.2.2.1
@[simp] theorem tiltAlign_magInhReq (x : In) (s : St) : (tiltAlign x s).magInhReq = s.magInhReq := (tiltAlign_frame x s).2.2.2.2.2.2.2.2.2.2.2.2.2.1
@[simp] theorem tiltAlign_velposReq (x : In) (s : St) : (tiltAlign x s).velposReq = s.velposReq := (tiltAlign_frame x s).2.2.2.2.2.2.2.2.2.2.2.2.2.2.1
@[simp] theorem tiltAlign_inhibited (x : In) (s : St) : (tiltAlign x s).inhibited = s.inhibited := (tiltAlign_frame x s).2.2.2.2.2.2.2.2.2.2.2.2.2.2.2.1
@[simp] theorem tiltAlign_nonMagPrev (x : In) (s : St) : (tiltAlign x s).nonMagPrev = s.nonMagPrev := (tiltAlign_frame x s).2.2.2.2.2.2.2.2.2.2.2.2.2.2.2.2.1
@[simp] theorem tiltAlign_yawObs (x : In) (s : St) : (tiltAlign x s).yawObs = s.yawObs := (tiltAlign_frame x s).2.2.2.2.2.2.2.2.2.2.2.2.2.2.2.2.2.1
@[simp] theorem tiltAlign_biasObs (x : In) (s : St) : (tiltAlign x s).biasObs = s.biasObs := (tiltAlign_frame x s).2.2.2.2.2.2.2.2.2.2.2.2.2.2.2.2.2.2.1
@[simp] theorem tiltAlign_nBad (x : In) (s : St) : (tiltAlign x s).nBad = s.nBad := (tiltAlign_frame x s).2.2.2.2.2.2.2.2.2.2.2.2.2.2.2.2.2.2.2.1
@[simp] theorem tiltAlign_tMov (x : In) (s : St) : (tiltAlign x s).tMov = s.tMov := (tiltAlign_frame x s).2.2.2.2.2.2.2.2.2.2.2.2.2.2.2.2.2.2.2.2.1
@[simp] theorem tiltAlign_tNotInh (x : In) (s : St) : (tiltAlign x s).tNotInh = s.tNotInh := (tiltAlign_frame x s).2.2.2.2.2.2.2.2.2.2.2.2.2.2.2.2.2.2.2.2.2.1
@[simp] theorem tiltAlign_tYaw (x : In) (s : St) : (tiltAlign x s).tYaw = s.tYaw := (tiltAlign_frame x s).2.2.2.2.2.2.2.2.2.2.2.2.2.2.2.2.2.2.2.2.2.2.1
@[simp] theorem tiltAlign_gpsYawFaulty (x : In) (s : St) : (tiltAlign x s).gpsYawFaulty = s.gpsYawFaulty := (tiltAlign_frame x s).2.2.2.2.2.2.2.2.2.2.2.2.2.2.2.2.2.2.2.2.2.2.2.1
@[simp] theorem tiltAlign_doGsf (x : In) (s : St) : (tiltAlign x s).doGsf = s.doGsf := (tiltAlign_frame x s).2.2.2.2.2.2.2.2.2.2.2.2.2.2.2.2.2.2.2.2.2.2.2.2.1
@[simp] theorem tiltAlign_gsfTime (x : In) (s : St) : (tiltAlign x s).gsfTime = s.gsfTime := (tiltAlign_frame x s).2.2.2.2.2.2.2.2.2.2.2.2.2.2.2.2.2.2.2.2.2.2.2.2.2.1
@[simp] theorem tiltAlign_gsfCount (x : In) (s : St) : (tiltAlign x s).gsfCount = s.gsfCount := (tiltAlign_frame x s).2.2.2.2.2.2.2.2.2.2.2.2.2.2.2.2.2.2.2.2.2.2.2.2.2.2.1
@[simp] theorem tiltAlign_tPos (x : In) (s : St) : (tiltAlign x s).tPos = s.tPos := (tiltAlign_frame x s).2.2.2.2.2.2.2.2.2.2.2.2.2.2.2.2.2.2.2.2.2.2.2.2.2.2.2.1
@[simp] theorem tiltAlign_tDelpos (x : In) (s : St) : (tiltAlign x s).tDelpos = s.tDelpos := (tiltAlign_frame x s).2.2.2.2.2.2.2.2.2.2.2.2.2.2.2.2.2.2.2.2.2.2.2.2.2.2.2.2.1
@[simp] theorem tiltAlign_tVel (x : In) (s : St) : (tiltAlign x s).tVel = s.tVel := (tiltAlign_frame x s).2.2.2.2.2.2.2.2.2.2.2.2.2.2.2.2.2.2.2.2.2.2.2.2.2.2.2.2.2.1
@[simp] theorem tiltAlign_tOf (x : In) (s : St) : (tiltAlign x s).tOf = s.tOf := (tiltAlign_frame x s).2.2.2.2.2.2.2.2.2.2.2.2.2.2.2.2.2.2.2.2.2.2.2.2.2.2.2.2.2.2.1
@[simp] theorem tiltAlign_tBeta (x : In) (s : St) : (tiltAlign x s).tBeta = s.tBeta := (tiltAlign_frame x s).2.2.2.2.2.2.2.2.2.2.2.2.2.2.2.2.2.2.2.2.2.2.2.2.2.2.2.2.2.2.2.1
@[simp] theorem tiltAlign_tArsp (x : In) (s : St) : (tiltAlign x s).tArsp = s.tArsp := (tiltAlign_frame x s).2.2.2.2.2.2.2.2.2.2.2.2.2.2.2.2.2.2.2.2.2.2.2.2.2.2.2.2.2.2.2.2.1
@[simp] theorem tiltAlign_tFake (x : In) (s : St) : (tiltAlign x s).tFake = s.tFake := (tiltAlign_frame x s).2.2.2.2.2.2.2.2.2.2.2.2.2.2.2.2.2.2.2.2.2.2.2.2.2.2.2.2.2.2.2.2.2.1
@[simp] theorem tiltAlign_tGpsYaw (x : In) (s : St) : (tiltAlign x s).tGpsYaw = s.tGpsYaw := (tiltAlign_frame x s).2.2.2.2.2.2.2.2.2.2.2.2.2.2.2.2.2.2.2.2.2.2.2.2.2.2.2.2.2.2.2.2.2.2.1
@[simp] theorem tiltAlign_hposPrev (x : In) (s : St) : (tiltAlign x s).hposPrev = s.hposPrev := (tiltAlign_frame x s).2.2.2.2.2.2.2.2.2.2.2.2.2.2.2.2.2.2.2.2.2.2.2.2.2.2.2.2.2.2.2.2.2.2.2.1
@[simp] theorem tiltAlign_hposOdom (x : In) (s : St) : (tiltAlign x s).hposOdom = s.hposOdom := (tiltAlign_frame x s).2.2.2.2.2.2.2.2.2.2.2.2.2.2.2.2.2.2.2.2.2.2.2.2.2.2.2.2.2.2.2.2.2.2.2.2.1
@[simp] theorem tiltAlign_synth (x : In) (s : St) : (tiltAlign x s).synth = s.synth := (tiltAlign_frame x s).2.2.2.2.2.2.2.2.2.2.2.2.2.2.2.2.2.2.2.2.2.2.2.2.2.2.2.2.2.2.2.2.2.2.2.2.2.1
@[simp] theorem tiltAlign_flowReady (x : In) (s : St) : (tiltAlign x s).flowReady = s.flowReady := (tiltAlign_frame x s).2.2.2.2.2.2.2.2.2.2.2.2.2.2.2.2.2.2.2.2.2.2.2.2.2.2.2.2.2.2.2.2.2.2.2.2.2.2.1
@[simp] theorem tiltAlign_flowInh (x : In) (s : St) : (tiltAlign x s).flowInh = s.flowInh := (tiltAlign_frame x s).2.2.2.2.2.2.2.2.2.2.2.2.2.2.2.2.2.2.2.2.2.2.2.2.2.2.2.2.2.2.2.2.2.2.2.2.2.2.2.1
@[simp] theorem tiltAlign_tGood (x : In) (s : St) : (tiltAlign x s).tGood = s.tGood := (tiltAlign_frame x s).2.2.2.2.2.2.2.2.2.2.2.2.2.2.2.2.2.2.2.2.2.2.2.2.2.2.2.2.2.2.2.2.2.2.2.2.2.2.2.2.1
@[simp] theorem tiltAlign_tBad (x : In) (s : St) : (tiltAlign x s).tBad = s.tBad := (tiltAlign_frame x s).2.2.2.2.2.2.2.2.2.2.2.2.2.2.2.2.2.2.2.2.2.2.2.2.2.2.2.2.2.2.2.2.2.2.2.2.2.2.2.2.2

theorem flowArrival_frame (x : In) (s : St) :
    (flowArrival x s).tilt = s.tilt ∧ (flowArrival x s).yawAlign = s.yawAlign ∧ (flowArrival x s).gps = s.gps ∧ (flowArrival x s).optFlow = s.optFlow ∧ (flowArrival x s).magHdg = s.magHdg ∧ (flowArrival x s).mag3D = s.mag3D ∧ (flowArrival x s).magDec = s.magDec ∧ (flowArrival x s).wind = s.wind ∧ (flowArrival x s).evPos = s.evPos ∧ (flowArrival x s).evVel = s.evVel ∧ (flowArrival x s).evYaw = s.evYaw ∧ (flowArrival x s).gpsYaw = s.gpsYaw ∧ (flowArrival x s).magDist = s.magDist ∧ (flowArrival x s).magFault = s.magFault ∧ (flowArrival x s).fuseAspd = s.fuseAspd ∧ (flowArrival x s).magAligned = s.magAligned ∧ (flowArrival x s).magYawReq = s.magYawReq ∧ (flowArrival x s).magInhReq = s.magInhReq ∧ (flowArrival x s).velposReq = s.velposReq ∧ (flowArrival x s).inhibited = s.inhibited ∧ (flowArrival x s).nonMagPrev = s.nonMagPrev ∧ (flowArrival x s).yawObs = s.yawObs ∧ (flowArrival x s).biasObs = s.biasObs ∧ (flowArrival x s).nBad = s.nBad ∧ (flowArrival x s).declCovReset = s.declCovReset ∧ (flowArrival x s).tAlign = s.tAlign ∧ (flowArrival x s).tMov = s.tMov ∧ (flowArrival x s).tNotInh = s.tNotInh ∧ (flowArrival x s).tYaw = s.tYaw ∧ (flowArrival x s).gpsYawFaulty = s.gpsYawFaulty ∧ (flowArrival x s).doGsf = s.doGsf ∧ (flowArrival x s).gsfTime = s.gsfTime ∧ (flowArrival x s).gsfCount = s.gsfCount ∧ (flowArrival x s).tPos = s.tPos ∧ (flowArrival x s).tDelpos = s.tDelpos ∧ (flowArrival x s).tVel = s.tVel ∧ (flowArrival x s).tOf = s.tOf ∧ (flowArrival x s).tBeta = s.tBeta ∧ (flowArrival x s).tArsp = s.tArsp ∧ (flowArrival x s).tFake = s.tFake ∧ (flowArrival x s).tGpsYaw = s.tGpsYaw ∧ (flowArrival x s).hposPrev = s.hposPrev ∧ (flowArrival x s).hposOdom = s.hposOdom ∧ (flowArrival x s).synth = s.synth ∧ (flowArrival x s).flowInh = s.flowInh ∧ (flowArrival x s).tGood = s.tGood ∧ (flowArrival x s).tBad = s.tBad := by
  unfold flowArrival; (try dsimp only); split_ifs <;> simp [*]
@[simp] theorem flowArrival_tilt (x : In) (s : St) : (flowArrival x s).tilt = s.tilt := (flowArrival_frame x s).1
@[simp] theorem flowArrival_yawAlign (x : In) (s : St) : (flowArrival x s).yawAlign = s.yawAlign := (flowArrival_frame x s).2.1
@[simp] theorem flowArrival_gps (x : In) (s : St) : (flowArrival x s).gps = s.gps := (flowArrival_frame x s).2.2.1
@[simp] theorem flowArrival_optFlow (x : In) (s : St) : (flowArrival x s).optFlow = s.optFlow := (flowArrival_frame x s).2.2.2.1
@[simp] theorem flowArrival_magHdg (x : In) (s : St) : (flowArrival x s).magHdg = s.magHdg := (flowArrival_frame x s).2.2.2.2.1
@[simp] theorem flowArrival_mag3D (x : In) (s : St) : (flowArrival x s).mag3D = s.mag3D := (flowArrival_frame x s).2.2.2.2.2.1
@[simp] theorem flowArrival_magDec (x : In) (s : St) : (flowArrival x s).magDec = s.magDec := (flowArrival_frame x s).2.2.2.2.2.2.1
@[simp] theorem flowArrival_wind (x : In) (s : St) : (flowArrival x s).wind = s.wind := (flowArrival_frame x s).2.2.2.2.2.2.2.1
@[simp] theorem flowArrival_evPos (x : In) (s : St) : (flowArrival x s).evPos = s.evPos := (flowArrival_frame x s).2.2.2.2.2.2.2.2.1
@[simp] theorem flowArrival_evVel (x : In) (s : St) : (flowArrival x s).evVel = s.evVel := (flowArrival_frame x s).2.2.2.2.2.2.2.2.2.1
@[simp] theorem flowArrival_evYaw (x : In) (s : St) : (flowArrival x s).evYaw = s.evYaw := (flowArrival_frame x s).2.2.2.2.2.2.2.2.2.2.1
@[simp] theorem flowArrival_gpsYaw (x : In) (s : St) : (flowArrival x s).gpsYaw = s.gpsYaw := (flowArrival_frame x s).2.2.2.2.2.2.2.2.2.2.2.1
@[simp] theorem flowArrival_magDist (x : In) (s : St) : (flowArrival x s).magDist = s.magDist := (flowArrival_frame x s).2.2.2.2.2.2.2.2.2.2.2.2.1
@[simp] theorem flowArrival_magFault (x : In) (s : St) : (flowArrival x s).magFault = s.magFault := (flowArrival_frame x s).2.2.2.2.2.2.2.2.2.2.2.2.2.1
@[simp] theorem flowArrival_fuseAspd (x : In) (s : St) : (flowArrival x s).fuseAspd = s.fuseAspd := (flowArrival_frame x s).2.2.2.2.2.2.2.2.2.2.2.2.2.2.1
@[simp] theorem flowArrival_magAligned (x : In) (s : St) : (flowArrival x s).magAligned = s.magAligned := (flowArrival_frame x s).2.2.2.2.2.2.2.2.2.2.2.2.2.2.2.1
@[simp] theorem flowArrival_magYawReq (x : In) (s : St) : (flowArrival x s).magYawReq = s.magYawReq := (flowArrival_frame x s).2.2.2.2.2.2.2.2.2.2.2.2.2.2.2.2.1
@[simp] theorem flowArrival_magInhReq (x : In) (s : St) : (flowArrival x s).magInhReq = s.magInhReq := (flowArrival_frame x s).2.2.2.2.2.2.2.2.2.2.2.2.2.2.2.2.2.1
@[simp] theorem flowArrival_velposReq (x : In) (s : St) : (flowArrival x s).velposReq = s.velposReq := (flowArrival_frame x s).2.2.2.2.2.2.2.2.2.2.2.2.2.2.2.2.2.2.1
@[simp] theorem flowArrival_inhibited (x : In) (s : St) : (flowArrival x s).inhibited = s.inhibited := (flowArrival_frame x s).2.2.2.2.2.2.2.2.2.2.2.2.2.2.2.2.2.2.2.1
@[simp] theorem flowArrival_nonMagPrev (x : In) (s : St) : (flowArrival x s).nonMagPrev = s.nonMagPrev := (flowArrival_frame x s).2.2.2.2.2.2.2.2.2.2.2.2.2.2.2.2.2.2.2.2.1
@[simp] theorem flowArrival_yawObs (x : In) (s : St) : (flowArrival x s).yawObs = s.yawObs := (flowArrival_frame x s).2.2.2.2.2.2.2.2.2.2.2.2.2.2.2.2.2.2.2.2.2.1
@[simp] theorem flowArrival_biasObs (x : In) (s : St) : (flowArrival x s).biasObs = s.biasObs := (flowArrival_frame x s).2.2.2.2.2.2.2.2.2.2.2.2.2.2.2.2.2.2.2.2.2.2.1
@[simp] theorem flowArrival_nBad (x : In) (s : St) : (flowArrival x s).nBad = s.nBad := (flowArrival_frame x s).2.2.2.2.2.2.2.2.2.2.2.2.2.2.2.2.2.2.2.2.2.2.2.1
@[simp] theorem flowArrival_declCovReset (x : In) (s : St) : (flowArrival x s).declCovReset = s.declCovReset := (flowArrival_frame x s).2.2.2.2.2.2.2.2.2.2.2.2.2.2.2.2.2.2.2.2.2.2.2.2.1
@[simp] theorem flowArrival_tAlign (x : In) (s : St) : (flowArrival x s).tAlign = s.tAlign := (flowArrival_frame x s).2.2.2.2.2.2.2.2.2.2.2.2.2.2.2.2.2.2.2.2.2.2.2.2.2.1
@[simp] theorem flowArrival_tMov (x : In) (s : St) : (flowArrival x s).tMov = s.tMov := (flowArrival_frame x s).2.2.2.2.2.2.2.2.2.2.2.2.2.2.2.2.2.2.2.2.2.2.2.2.2.2.1
@[simp] theorem flowArrival_tNotInh (x : In) (s : St) : (flowArrival x s).tNotInh = s.tNotInh := (flowArrival_frame x s).2.2.2.2.2.2.2.2.2.2.2.2.2.2.2.2.2.2.2.2.2.2.2.2.2.2.2.1
@[simp] theorem flowArrival_tYaw (x : In) (s : St) : (flowArrival x s).tYaw = s.tYaw := (flowArrival_frame x s).2.2.2.2.2.2.2.2.2.2.2.2.2.2.2.2.2.2.2.2.2.2.2.2.2.2.2.2.1
@[simp] theorem flowArrival_gpsYawFaulty (x : In) (s : St) : (flowArrival x s).gpsYawFaulty = s.gpsYawFaulty := (flowArrival_frame x s).2.2.2.2.2.2.2.2.2.2.2.2.2.2.2.2.2.2.2.2.2.2.2.2.2.2.2.2.2.1
@[simp] theorem flowArrival_doGsf (x : In) (s : St) : (flowArrival x s).doGsf = s.doGsf := (flowArrival_frame x s).2.2.2.2.2.2.2.2.2.2.2.2.2.2.2.2.2.2.2.2.2.2.2.2.2.2.2.2.2.2.1
@[simp] theorem flowArrival_gsfTime (x : In) (s : St) : (flowArrival x s).gsfTime = s.gsfTime := (flowArrival_frame x s).2.2.2.2.2.2.2.2.2.2.2.2.2.2.2.2.2.2.2.2.2.2.2.2.2.2.2.2.2.2.2.1
@[simp] theorem flowArrival_gsfCount (x : In) (s : St) : (flowArrival x s).gsfCount = s.gsfCount := (flowArrival_frame x s).2.2.2.2.2.2.2.2.2.2.2.2.2.2.2.2.2.2.2.2.2.2.2.2.2.2.2.2.2.2.2.2.1
@[simp] theorem flowArrival_tPos (x : In) (s : St) : (flowArrival x s).tPos = s.tPos := (flowArrival_frame x s).2.2.2.2.2.2.2.2.2.2.2.2.2.2.2.2.2.2.2.2.2.2.2.2.2.2.2.2.2.2.2.2.2.1
@[simp] theorem flowArrival_tDelpos (x : In) (s : St) : (flowArrival x s).tDelpos = s.tDelpos := (flowArrival_frame x s).2.2.2.2.2.2.2.2.2.2.2.2.2.2.2.2.2.2.2.2.2.2.2.2.2.2.2.2.2.2.2.2.2.2.1
@[simp] theorem flowArrival_tVel (x : In) (s : St) : (flowArrival x s).tVel = s.tVel := (flowArrival_frame x s).2.2.2.2.2.2.2.2.2.2.2.2.2.2.2.2.2.2.2.2.2.2.2.2.2.2.2.2.2.2.2.2.2.2.2.1
@[simp] theorem flowArrival_tOf (x : In) (s : St) : (flowArrival x s).tOf = s.tOf := (flowArrival_frame x s).2.2.2.2.2.2.2.2.2.2.2.2.2.2.2.2.2.2.2.2.2.2.2.2.2.2.2.2.2.2.2.2.2.2.2.2.1
@[simp] theorem flowArrival_tBeta (x : In) (s : St) : (flowArrival x s).tBeta = s.tBeta := (flowArrival_frame x s).2.2.2.2.2.2.2.2.2.2.2.2.2.2.2.2.2.2.2.2.2.2.2.2.2.2.2.2.2.2.2.2.2.2.2.2.2.1
@[simp] theorem flowArrival_tArsp (x : In) (s : St) : (flowArrival x s).tArsp = s.tArsp := (flowArrival_frame x s).2.2.2.2.2.2.2.2.2.2.2.2.2.2.2.2.2.2.2.2.2.2.2.2.2.2.2.2.2.2.2.2.2.2.2.2.2.2.1
@[simp] theorem flowArrival_tFake (x : In) (s : St) : (flowArrival x s).tFake = s.tFake := (flowArrival_frame x s).2.2.2.2.2.2.2.2.2.2.2.2.2.2.2.2.2.2.2.2.2.2.2.2.2.2.2.2.2.2.2.2.2.2.2.2.2.2.2.1
@[simp] theorem flowArrival_tGpsYaw (x : In) (s : St) : (flowArrival x s).tGpsYaw = s.tGpsYaw := (flowArrival_frame x s).2.2.2.2.2.2.2.2.2.2.2.2.2.2.2.2.2.2.2.2.2.2.2.2.2.2.2.2.2.2.2.2.2.2.2.2.2.2.2.2.1
@[simp] theorem flowArrival_hposPrev (x : In) (s : St) : (flowArrival x s).hposPrev = s.hposPrev := (flowArrival_frame x s).2.2.2.2.2.2.2.2.2.2.2.2.2.2.2.2.2.2.2.2.2.2.2.2.2.2.2.2.2.2.2.2.2.2.2.2.2.2.2.2.2.1
@[simp] theorem flowArrival_hposOdom (x : In) (s : St) : (flowArrival x s).hposOdom = s.hposOdom := (flowArrival_frame x s).2.2.2.2.2.2.2.2.2.2.2.2.2.2.2.2.2.2.2.2.2.2.2.2.2.2.2.2.2.2.2.2.2.2.2.2.2.2.2.2.2.2.1
@[simp] theorem flowArrival_synth (x : In) (s : St) : (flowArrival x s).synth = s.synth := (flowArrival_frame x s).2.2.2.2.2.2.2.2.2.2.2.2.2.2.2.2.2.2.2.2.2.2.2.2.2.2.2.2.2.2.2.2.2.2.2.2.2.2.2.2.2.2.2.1
@[simp] theorem flowArrival_flowInh (x : In) (s : St) : (flowArrival x s).flowInh = s.flowInh := (flowArrival_frame x s).2.2.2.2.2.2.2.2.2.2.2.2.2.2.2.2.2.2.2.2.2.2.2.2.2.2.2.2.2.2.2.2.2.2.2.2.2.2.2.2.2.2.2.2.1
@[simp] theorem flowArrival_tGood (x : In) (s : St) : (flowArrival x s).tGood = s.tGood := (flowArrival_frame x s).2.2.2.2.2.2.2.2.2.2.2.2.2.2.2.2.2.2.2.2.2.2.2.2.2.2.2.2.2.2.2.2.2.2.2.2.2.2.2.2.2.2.2.2.2.1
@[simp] theorem flowArrival_tBad (x : In) (s : St) : (flowArrival x s).tBad = s.tBad := (flowArrival_frame x s).2.2.2.2.2.2.2.2.2.2.2.2.2.2.2.2.2.2.2.2.2.2.2.2.2.2.2.2.2.2.2.2.2.2.2.2.2.2.2.2.2.2.2.2.2.2

/-- three-axis magnetometer or declination fusion -/
def isMagFuse : Act → Bool
  | .fuseMag => true
  | .fuseDecl _ => true
  | _ => false
/-- yaw reset to the yaw estimator -/
def isGsf : Act → Bool
  | .yawReset .gsf => true
  | _ => false
/-- heading fusion -/
def isHeading : Act → Bool
  | .fuseHeading => true
  | _ => false
/-- GPS yaw fusion -/
def isGpsYaw : Act → Bool
  | .fuseGpsYaw => true
  | _ => false
/-- position fusion -/
def isFix : Act → Bool
  | .fusePos _ => true
  | _ => false

@[simp] theorem stopMag3D_isMagFuse (s : St) : (stopMag3D s).log.countP isMagFuse = s.log.countP isMagFuse := by
  unfold stopMag3D; (try dsimp only); split_ifs <;> simp [*, isMagFuse]
@[simp] theorem stopMagHdg_isMagFuse (s : St) : (stopMagHdg s).log.countP isMagFuse = s.log.countP isMagFuse := by
  unfold stopMagHdg; simp [isMagFuse]
@[simp] theorem clearMagCov_isMagFuse (s : St) : (clearMagCov s).log.countP isMagFuse = s.log.countP isMagFuse := by
  unfold clearMagCov; simp [isMagFuse]
@[simp] theorem stopMag_isMagFuse (s : St) : (stopMag s).log.countP isMagFuse = s.log.countP isMagFuse := by
  unfold stopMag; simp [isMagFuse]
@[simp] theorem startMagHdg_isMagFuse (s : St) : (startMagHdg s).log.countP isMagFuse = s.log.countP isMagFuse := by
  unfold startMagHdg; simp [isMagFuse]
@[simp] theorem startMag3D_isMagFuse (s : St) : (startMag3D s).log.countP isMagFuse = s.log.countP isMagFuse := by
  unfold startMag3D; (try dsimp only); split_ifs <;> simp [*, isMagFuse]
@[simp] theorem resetMagStates_isMagFuse (s : St) : (resetMagStates s).log.countP isMagFuse = s.log.countP isMagFuse := by
  unfold resetMagStates; (try dsimp only); split_ifs <;> simp [*, isMagFuse]
@[simp] theorem resetVel_isMagFuse (x : In) (s : St) : (resetVel x s).log.countP isMagFuse = s.log.countP isMagFuse := by
  unfold resetVel; simp [isMagFuse]
@[simp] theorem resetPos_isMagFuse (x : In) (s : St) : (resetPos x s).log.countP isMagFuse = s.log.countP isMagFuse := by
  unfold resetPos; simp [isMagFuse]
@[simp] theorem resetMagHeading_isMagFuse (x : In) (s : St) : (resetMagHeading x s).1.log.countP isMagFuse = s.log.countP isMagFuse := by
  unfold resetMagHeading; (try dsimp only); split_ifs <;> simp [*, isMagFuse]
@[simp] theorem declareFault_isMagFuse (s : St) : (declareFault s).log.countP isMagFuse = s.log.countP isMagFuse := by
  unfold declareFault; (try dsimp only); split_ifs <;> simp [*, isMagFuse]
@[simp] theorem courseYaw_isMagFuse (s : St) : (courseYaw s).log.countP isMagFuse = s.log.countP isMagFuse := by
  unfold courseYaw; (try dsimp only); split_ifs <;> simp [*, isMagFuse]
@[simp] theorem courseAlign_isMagFuse (x : In) (s : St) : (courseAlign x s).log.countP isMagFuse = s.log.countP isMagFuse := by
  unfold courseAlign; (try dsimp only); split_ifs <;> simp [*, isMagFuse]
@[simp] theorem realignYawGps_isMagFuse (x : In) (s : St) : (realignYawGps x s).1.log.countP isMagFuse = s.log.countP isMagFuse := by
  unfold realignYawGps; (try dsimp only); split_ifs <;> simp [*, isMagFuse]
@[simp] theorem resetYawToGsf_isMagFuse (x : In) (s : St) : (resetYawToGsf x s).1.log.countP isMagFuse = s.log.countP isMagFuse := by
  unfold resetYawToGsf; (try dsimp only); split_ifs <;> simp [*, isMagFuse]
@[simp] theorem fuseVelHor_isMagFuse (x : In) (ok : Bool) (s : St) : (fuseVelHor x ok s).log.countP isMagFuse = s.log.countP isMagFuse := by
  unfold fuseVelHor; (try dsimp only); split_ifs <;> simp [*, isMagFuse]
@[simp] theorem fusePos_isMagFuse (x : In) (v : PosVar) (ok : Bool) (s : St) : (fusePos x v ok s).log.countP isMagFuse = s.log.countP isMagFuse := by
  unfold fusePos; (try dsimp only); split_ifs <;> simp [*, isMagFuse]
@[simp] theorem otherStopped_isMagFuse (s : St) : (otherStopped s).log.countP isMagFuse = s.log.countP isMagFuse := by
  unfold otherStopped; simp [isMagFuse]
@[simp] theorem checkHagl_isMagFuse (x : In) (s : St) : (checkHagl x s).log.countP isMagFuse = s.log.countP isMagFuse := by
  unfold checkHagl; (try dsimp only); split_ifs <;> simp [*, isMagFuse]
@[simp] theorem groundYawReset_isMagFuse (x : In) (s : St) : (groundYawReset x s).log.countP isMagFuse = s.log.countP isMagFuse := by
  unfold groundYawReset; (try dsimp only); split_ifs <;> simp [*, isMagFuse]
@[simp] theorem airYawReset_isMagFuse (x : In) (s : St) : (airYawReset x s).log.countP isMagFuse = s.log.countP isMagFuse := by
  unfold airYawReset; (try dsimp only); split_ifs <;> simp [*, isMagFuse]
@[simp] theorem velPosReset_isMagFuse (x : In) (s : St) : (velPosReset x s).log.countP isMagFuse = s.log.countP isMagFuse := by
  unfold velPosReset; (try dsimp only); split_ifs <;> simp [*, isMagFuse]
@[simp] theorem check3D_isMagFuse (x : In) (s : St) : (check3D x s).log.countP isMagFuse = s.log.countP isMagFuse := by
  unfold check3D; (try dsimp only); split_ifs <;> simp [*, isMagFuse]
@[simp] theorem selectMagAuto_isMagFuse (x : In) (s : St) : (selectMagAuto x s).log.countP isMagFuse = s.log.countP isMagFuse := by
  unfold selectMagAuto; (try dsimp only); split_ifs <;> simp [*, isMagFuse]
@[simp] theorem selectMode_isMagFuse (x : In) (s : St) : (selectMode x s).log.countP isMagFuse = s.log.countP isMagFuse := by
  unfold selectMode; (try dsimp only); split_ifs <;> simp [*, isMagFuse]
@[simp] theorem checkDecl_isMagFuse (x : In) (s : St) : (checkDecl x s).log.countP isMagFuse = s.log.countP isMagFuse := by
  unfold checkDecl; simp [isMagFuse]
@[simp] theorem checkInhibition_isMagFuse (x : In) (s : St) : (checkInhibition x s).log.countP isMagFuse = s.log.countP isMagFuse := by
  unfold checkInhibition; (try dsimp only); split_ifs <;> simp [*, isMagFuse]
@[simp] theorem magPrepare_isMagFuse (x : In) (s : St) : (magPrepare x s).log.countP isMagFuse = s.log.countP isMagFuse := by
  unfold magPrepare; (try dsimp only); split_ifs <;> simp [*, isMagFuse]
@[simp] theorem startGps_isMagFuse (s : St) : (startGps s).log.countP isMagFuse = s.log.countP isMagFuse := by
  unfold startGps; (try dsimp only); split_ifs <;> simp [*, isMagFuse]
@[simp] theorem stopGps_isMagFuse (s : St) : (stopGps s).log.countP isMagFuse = s.log.countP isMagFuse := by
  unfold stopGps; simp [isMagFuse]
@[simp] theorem startGpsYaw_isMagFuse (s : St) : (startGpsYaw s).log.countP isMagFuse = s.log.countP isMagFuse := by
  unfold startGpsYaw; simp [isMagFuse]
@[simp] theorem gpsYawUse_isMagFuse (x : In) (s : St) : (gpsYawUse x s).log.countP isMagFuse = s.log.countP isMagFuse := by
  unfold gpsYawUse; (try dsimp only); split_ifs <;> simp [*, isMagFuse]
@[simp] theorem controlGpsYaw_isMagFuse (x : In) (s : St) : (controlGpsYaw x s).log.countP isMagFuse = s.log.countP isMagFuse := by
  unfold controlGpsYaw; (try dsimp only); split_ifs <;> simp [*, isMagFuse]
@[simp] theorem gpsHeading_isMagFuse (x : In) (s : St) : (gpsHeading x s).log.countP isMagFuse = s.log.countP isMagFuse := by
  unfold gpsHeading; (try dsimp only); split_ifs <;> simp [*, isMagFuse]
@[simp] theorem gpsStart_isMagFuse (x : In) (s : St) : (gpsStart x s).log.countP isMagFuse = s.log.countP isMagFuse := by
  unfold gpsStart; (try dsimp only); split_ifs <;> simp [*, isMagFuse]
@[simp] theorem gpsFailing_isMagFuse (x : In) (s : St) : (gpsFailing x s).log.countP isMagFuse = s.log.countP isMagFuse := by
  unfold gpsFailing; (try dsimp only); split_ifs <;> simp [*, isMagFuse]
@[simp] theorem gsfAlign_isMagFuse (x : In) (s : St) : (gsfAlign x s).log.countP isMagFuse = s.log.countP isMagFuse := by
  unfold gsfAlign; (try dsimp only); split_ifs <;> simp [*, isMagFuse]
@[simp] theorem gsfReset_isMagFuse (x : In) (s : St) : (gsfReset x s).log.countP isMagFuse = s.log.countP isMagFuse := by
  unfold gsfReset; (try dsimp only); split_ifs <;> simp [*, isMagFuse]
@[simp] theorem gpsTimeoutReset_isMagFuse (x : In) (s : St) : (gpsTimeoutReset x s).log.countP isMagFuse = s.log.countP isMagFuse := by
  unfold gpsTimeoutReset; (try dsimp only); split_ifs <;> simp [*, isMagFuse]
@[simp] theorem gpsResets_isMagFuse (x : In) (s : St) : (gpsResets x s).log.countP isMagFuse = s.log.countP isMagFuse := by
  unfold gpsResets; (try dsimp only); split_ifs <;> simp [*, isMagFuse]
@[simp] theorem gpsFuse_isMagFuse (x : In) (s : St) : (gpsFuse x s).log.countP isMagFuse = s.log.countP isMagFuse := by
  unfold gpsFuse; (try dsimp only); split_ifs <;> simp [*, isMagFuse]
@[simp] theorem controlGps_isMagFuse (x : In) (s : St) : (controlGps x s).log.countP isMagFuse = s.log.countP isMagFuse := by
  unfold controlGps; (try dsimp only); split_ifs <;> simp [*, isMagFuse]
@[simp] theorem flowMotion_isMagFuse (x : In) (s : St) : (flowMotion x s).log.countP isMagFuse = s.log.countP isMagFuse := by
  unfold flowMotion; (try dsimp only); split_ifs <;> simp [*, isMagFuse]
@[simp] theorem flowQuality_isMagFuse (x : In) (s : St) : (flowQuality x s).log.countP isMagFuse = s.log.countP isMagFuse := by
  unfold flowQuality; (try dsimp only); split_ifs <;> simp [*, isMagFuse]
@[simp] theorem stopFlow_isMagFuse (s : St) : (stopFlow s).log.countP isMagFuse = s.log.countP isMagFuse := by
  unfold stopFlow; simp [isMagFuse]
@[simp] theorem flowStart_isMagFuse (x : In) (s : St) : (flowStart x s).log.countP isMagFuse = s.log.countP isMagFuse := by
  unfold flowStart; (try dsimp only); split_ifs <;> simp [*, isMagFuse]
@[simp] theorem flowUse_isMagFuse (x : In) (s : St) : (flowUse x s).log.countP isMagFuse = s.log.countP isMagFuse := by
  unfold flowUse; (try dsimp only); split_ifs <;> simp [*, isMagFuse]
@[simp] theorem controlFlow_isMagFuse (x : In) (s : St) : (controlFlow x s).log.countP isMagFuse = s.log.countP isMagFuse := by
  unfold controlFlow; (try dsimp only); split_ifs <;> simp [*, isMagFuse]
@[simp] theorem evStart_isMagFuse (x : In) (s : St) : (evStart x s).log.countP isMagFuse = s.log.countP isMagFuse := by
  unfold evStart; (try dsimp only); split_ifs <;> simp [*, isMagFuse]
@[simp] theorem startEvYaw_isMagFuse (s : St) : (startEvYaw s).log.countP isMagFuse = s.log.countP isMagFuse := by
  unfold startEvYaw; simp [isMagFuse]
@[simp] theorem evYawStart_isMagFuse (x : In) (s : St) : (evYawStart x s).log.countP isMagFuse = s.log.countP isMagFuse := by
  unfold evYawStart; (try dsimp only); split_ifs <;> simp [*, isMagFuse]
@[simp] theorem evPosUse_isMagFuse (x : In) (s : St) : (evPosUse x s).log.countP isMagFuse = s.log.countP isMagFuse := by
  unfold evPosUse; (try dsimp only); split_ifs <;> simp [*, isMagFuse]
@[simp] theorem evVelUse_isMagFuse (x : In) (s : St) : (evVelUse x s).log.countP isMagFuse = s.log.countP isMagFuse := by
  unfold evVelUse; (try dsimp only); split_ifs <;> simp [*, isMagFuse]
@[simp] theorem stopEv_isMagFuse (s : St) : (stopEv s).log.countP isMagFuse = s.log.countP isMagFuse := by
  unfold stopEv; simp [isMagFuse]
@[simp] theorem controlEv_isMagFuse (x : In) (s : St) : (controlEv x s).log.countP isMagFuse = s.log.countP isMagFuse := by
  unfold controlEv; (try dsimp only); split_ifs <;> simp [*, isMagFuse]
@[simp] theorem controlAir_isMagFuse (x : In) (s : St) : (controlAir x s).log.countP isMagFuse = s.log.countP isMagFuse := by
  unfold controlAir; (try dsimp only); split_ifs <;> simp [*, isMagFuse]
@[simp] theorem controlBeta_isMagFuse (x : In) (s : St) : (controlBeta x s).log.countP isMagFuse = s.log.countP isMagFuse := by
  unfold controlBeta; (try dsimp only); split_ifs <;> simp [*, isMagFuse]
@[simp] theorem controlDrag_isMagFuse (x : In) (s : St) : (controlDrag x s).log.countP isMagFuse = s.log.countP isMagFuse := by
  unfold controlDrag; (try dsimp only); split_ifs <;> simp [*, isMagFuse]
@[simp] theorem controlAux_isMagFuse (x : In) (s : St) : (controlAux x s).log.countP isMagFuse = s.log.countP isMagFuse := by
  unfold controlAux; (try dsimp only); split_ifs <;> simp [*, isMagFuse]
@[simp] theorem controlFake_isMagFuse (x : In) (s : St) : (controlFake x s).log.countP isMagFuse = s.log.countP isMagFuse := by
  unfold controlFake; (try dsimp only); split_ifs <;> simp [*, isMagFuse]
@[simp] theorem requests_isMagFuse (x : In) (s : St) : (requests x s).log.countP isMagFuse = s.log.countP isMagFuse := by
  unfold requests; (try dsimp only); split_ifs <;> simp [*, isMagFuse]
@[simp] theorem tiltAlign_isMagFuse (x : In) (s : St) : (tiltAlign x s).log.countP isMagFuse = s.log.countP isMagFuse := by
  unfold tiltAlign; (try dsimp only); split_ifs <;> simp [*, isMagFuse]
@[simp] theorem flowArrival_isMagFuse (x : In) (s : St) : (flowArrival x s).log.countP isMagFuse = s.log.countP isMagFuse := by
  unfold flowArrival; (try dsimp only); split_ifs <;> simp [*, isMagFuse]

@[simp] theorem stopMag3D_isGsf (s : St) : (stopMag3D s).log.countP isGsf = s.log.countP isGsf := by
  unfold stopMag3D; (try dsimp only); split_ifs <;> simp [*, isGsf]
@[simp] theorem stopMagHdg_isGsf (s : St) : (stopMagHdg s).log.countP isGsf = s.log.countP isGsf := by
  unfold stopMagHdg; simp [isGsf]
@[simp] theorem clearMagCov_isGsf (s : St) : (clearMagCov s).log.countP isGsf = s.log.countP isGsf := by
  unfold clearMagCov; simp [isGsf]
@[simp] theorem stopMag_isGsf (s : St) : (stopMag s).log.countP isGsf = s.log.countP isGsf := by
  unfold stopMag; simp [isGsf]
@[simp] theorem startMagHdg_isGsf (s : St) : (startMagHdg s).log.countP isGsf = s.log.countP isGsf := by
  unfold startMagHdg; simp [isGsf]
@[simp] theorem startMag3D_isGsf (s : St) : (startMag3D s).log.countP isGsf = s.log.countP isGsf := by
  unfold startMag3D; (try dsimp only); split_ifs <;> simp [*, isGsf]
@[simp] theorem resetMagStates_isGsf (s : St) : (resetMagStates s).log.countP isGsf = s.log.countP isGsf := by
  unfold resetMagStates; (try dsimp only); split_ifs <;> simp [*, isGsf]
@[simp] theorem resetVel_isGsf (x : In) (s : St) : (resetVel x s).log.countP isGsf = s.log.countP isGsf := by
  unfold resetVel; simp [isGsf]
@[simp] theorem resetPos_isGsf (x : In) (s : St) : (resetPos x s).log.countP isGsf = s.log.countP isGsf := by
  unfold resetPos; simp [isGsf]
@[simp] theorem resetMagHeading_isGsf (x : In) (s : St) : (resetMagHeading x s).1.log.countP isGsf = s.log.countP isGsf := by
  unfold resetMagHeading; (try dsimp only); split_ifs <;> simp [*, isGsf]
@[simp] theorem declareFault_isGsf (s : St) : (declareFault s).log.countP isGsf = s.log.countP isGsf := by
  unfold declareFault; (try dsimp only); split_ifs <;> simp [*, isGsf]
@[simp] theorem courseYaw_isGsf (s : St) : (courseYaw s).log.countP isGsf = s.log.countP isGsf := by
  unfold courseYaw; (try dsimp only); split_ifs <;> simp [*, isGsf]
@[simp] theorem courseAlign_isGsf (x : In) (s : St) : (courseAlign x s).log.countP isGsf = s.log.countP isGsf := by
  unfold courseAlign; (try dsimp only); split_ifs <;> simp [*, isGsf]
@[simp] theorem realignYawGps_isGsf (x : In) (s : St) : (realignYawGps x s).1.log.countP isGsf = s.log.countP isGsf := by
  unfold realignYawGps; (try dsimp only); split_ifs <;> simp [*, isGsf]
@[simp] theorem fuseVelHor_isGsf (x : In) (ok : Bool) (s : St) : (fuseVelHor x ok s).log.countP isGsf = s.log.countP isGsf := by
  unfold fuseVelHor; (try dsimp only); split_ifs <;> simp [*, isGsf]
@[simp] theorem fusePos_isGsf (x : In) (v : PosVar) (ok : Bool) (s : St) : (fusePos x v ok s).log.countP isGsf = s.log.countP isGsf := by
  unfold fusePos; (try dsimp only); split_ifs <;> simp [*, isGsf]
@[simp] theorem otherStopped_isGsf (s : St) : (otherStopped s).log.countP isGsf = s.log.countP isGsf := by
  unfold otherStopped; simp [isGsf]
@[simp] theorem checkHagl_isGsf (x : In) (s : St) : (checkHagl x s).log.countP isGsf = s.log.countP isGsf := by
  unfold checkHagl; (try dsimp only); split_ifs <;> simp [*, isGsf]
@[simp] theorem groundYawReset_isGsf (x : In) (s : St) : (groundYawReset x s).log.countP isGsf = s.log.countP isGsf := by
  unfold groundYawReset; (try dsimp only); split_ifs <;> simp [*, isGsf]
@[simp] theorem airYawReset_isGsf (x : In) (s : St) : (airYawReset x s).log.countP isGsf = s.log.countP isGsf := by
  unfold airYawReset; (try dsimp only); split_ifs <;> simp [*, isGsf]
@[simp] theorem velPosReset_isGsf (x : In) (s : St) : (velPosReset x s).log.countP isGsf = s.log.countP isGsf := by
  unfold velPosReset; (try dsimp only); split_ifs <;> simp [*, isGsf]
@[simp] theorem check3D_isGsf (x : In) (s : St) : (check3D x s).log.countP isGsf = s.log.countP isGsf := by
  unfold check3D; (try dsimp only); split_ifs <;> simp [*, isGsf]
@[simp] theorem selectMagAuto_isGsf (x : In) (s : St) : (selectMagAuto x s).log.countP isGsf = s.log.countP isGsf := by
  unfold selectMagAuto; (try dsimp only); split_ifs <;> simp [*, isGsf]
@[simp] theorem selectMode_isGsf (x : In) (s : St) : (selectMode x s).log.countP isGsf = s.log.countP isGsf := by
  unfold selectMode; (try dsimp only); split_ifs <;> simp [*, isGsf]
@[simp] theorem checkDecl_isGsf (x : In) (s : St) : (checkDecl x s).log.countP isGsf = s.log.countP isGsf := by
  unfold checkDecl; simp [isGsf]
@[simp] theorem checkInhibition_isGsf (x : In) (s : St) : (checkInhibition x s).log.countP isGsf = s.log.countP isGsf := by
  unfold checkInhibition; (try dsimp only); split_ifs <;> simp [*, isGsf]
@[simp] theorem runMagFusions_isGsf (s : St) : (runMagFusions s).log.countP isGsf = s.log.countP isGsf := by
  unfold runMagFusions; (try dsimp only); split_ifs <;> simp [*, isGsf]
@[simp] theorem magWithData_isGsf (x : In) (s : St) : (magWithData x s).log.countP isGsf = s.log.countP isGsf := by
  unfold magWithData; (try dsimp only); split_ifs <;> simp [*, isGsf]
@[simp] theorem magPrepare_isGsf (x : In) (s : St) : (magPrepare x s).log.countP isGsf = s.log.countP isGsf := by
  unfold magPrepare; (try dsimp only); split_ifs <;> simp [*, isGsf]
@[simp] theorem magMain_isGsf (x : In) (s : St) : (magMain x s).log.countP isGsf = s.log.countP isGsf := by
  unfold magMain; (try dsimp only); split_ifs <;> simp [*, isGsf]
@[simp] theorem controlMag_isGsf (x : In) (s : St) : (controlMag x s).log.countP isGsf = s.log.countP isGsf := by
  unfold controlMag; (try dsimp only); split_ifs <;> simp [*, isGsf]
@[simp] theorem startGps_isGsf (s : St) : (startGps s).log.countP isGsf = s.log.countP isGsf := by
  unfold startGps; (try dsimp only); split_ifs <;> simp [*, isGsf]
@[simp] theorem stopGps_isGsf (s : St) : (stopGps s).log.countP isGsf = s.log.countP isGsf := by
  unfold stopGps; simp [isGsf]
@[simp] theorem startGpsYaw_isGsf (s : St) : (startGpsYaw s).log.countP isGsf = s.log.countP isGsf := by
  unfold startGpsYaw; simp [isGsf]
@[simp] theorem gpsYawUse_isGsf (x : In) (s : St) : (gpsYawUse x s).log.countP isGsf = s.log.countP isGsf := by
  unfold gpsYawUse; (try dsimp only); split_ifs <;> simp [*, isGsf]
@[simp] theorem controlGpsYaw_isGsf (x : In) (s : St) : (controlGpsYaw x s).log.countP isGsf = s.log.countP isGsf := by
  unfold controlGpsYaw; (try dsimp only); split_ifs <;> simp [*, isGsf]
@[simp] theorem gpsHeading_isGsf (x : In) (s : St) : (gpsHeading x s).log.countP isGsf = s.log.countP isGsf := by
  unfold gpsHeading; (try dsimp only); split_ifs <;> simp [*, isGsf]
@[simp] theorem gpsStart_isGsf (x : In) (s : St) : (gpsStart x s).log.countP isGsf = s.log.countP isGsf := by
  unfold gpsStart; (try dsimp only); split_ifs <;> simp [*, isGsf]
@[simp] theorem gpsFailing_isGsf (x : In) (s : St) : (gpsFailing x s).log.countP isGsf = s.log.countP isGsf := by
  unfold gpsFailing; (try dsimp only); split_ifs <;> simp [*, isGsf]
@[simp] theorem gpsTimeoutReset_isGsf (x : In) (s : St) : (gpsTimeoutReset x s).log.countP isGsf = s.log.countP isGsf := by
  unfold gpsTimeoutReset; (try dsimp only); split_ifs <;> simp [*, isGsf]
@[simp] theorem gpsFuse_isGsf (x : In) (s : St) : (gpsFuse x s).log.countP isGsf = s.log.countP isGsf := by
  unfold gpsFuse; (try dsimp only); split_ifs <;> simp [*, isGsf]
@[simp] theorem flowMotion_isGsf (x : In) (s : St) : (flowMotion x s).log.countP isGsf = s.log.countP isGsf := by
  unfold flowMotion; (try dsimp only); split_ifs <;> simp [*, isGsf]
@[simp] theorem flowQuality_isGsf (x : In) (s : St) : (flowQuality x s).log.countP isGsf = s.log.countP isGsf := by
  unfold flowQuality; (try dsimp only); split_ifs <;> simp [*, isGsf]
@[simp] theorem stopFlow_isGsf (s : St) : (stopFlow s).log.countP isGsf = s.log.countP isGsf := by
  unfold stopFlow; simp [isGsf]
@[simp] theorem flowStart_isGsf (x : In) (s : St) : (flowStart x s).log.countP isGsf = s.log.countP isGsf := by
  unfold flowStart; (try dsimp only); split_ifs <;> simp [*, isGsf]
@[simp] theorem flowUse_isGsf (x : In) (s : St) : (flowUse x s).log.countP isGsf = s.log.countP isGsf := by
  unfold flowUse; (try dsimp only); split_ifs <;> simp [*, isGsf]
@[simp] theorem controlFlow_isGsf (x : In) (s : St) : (controlFlow x s).log.countP isGsf = s.log.countP isGsf := by
  unfold controlFlow; (try dsimp only); split_ifs <;> simp [*, isGsf]
@[simp] theorem evStart_isGsf (x : In) (s : St) : (evStart x s).log.countP isGsf = s.log.countP isGsf := by
  unfold evStart; (try dsimp only); split_ifs <;> simp [*, isGsf]
@[simp] theorem startEvYaw_isGsf (s : St) : (startEvYaw s).log.countP isGsf = s.log.countP isGsf := by
  unfold startEvYaw; simp [isGsf]
@[simp] theorem evYawStart_isGsf (x : In) (s : St) : (evYawStart x s).log.countP isGsf = s.log.countP isGsf := by
  unfold evYawStart; (try dsimp only); split_ifs <;> simp [*, isGsf]
@[simp] theorem evPosUse_isGsf (x : In) (s : St) : (evPosUse x s).log.countP isGsf = s.log.countP isGsf := by
  unfold evPosUse; (try dsimp only); split_ifs <;> simp [*, isGsf]
@[simp] theorem evVelUse_isGsf (x : In) (s : St) : (evVelUse x s).log.countP isGsf = s.log.countP isGsf := by
  unfold evVelUse; (try dsimp only); split_ifs <;> simp [*, isGsf]
@[simp] theorem stopEv_isGsf (s : St) : (stopEv s).log.countP isGsf = s.log.countP isGsf := by
  unfold stopEv; simp [isGsf]
@[simp] theorem controlEv_isGsf (x : In) (s : St) : (controlEv x s).log.countP isGsf = s.log.countP isGsf := by
  unfold controlEv; (try dsimp only); split_ifs <;> simp [*, isGsf]
@[simp] theorem controlAir_isGsf (x : In) (s : St) : (controlAir x s).log.countP isGsf = s.log.countP isGsf := by
  unfold controlAir; (try dsimp only); split_ifs <;> simp [*, isGsf]
@[simp] theorem controlBeta_isGsf (x : In) (s : St) : (controlBeta x s).log.countP isGsf = s.log.countP isGsf := by
  unfold controlBeta; (try dsimp only); split_ifs <;> simp [*, isGsf]
@[simp] theorem controlDrag_isGsf (x : In) (s : St) : (controlDrag x s).log.countP isGsf = s.log.countP isGsf := by
  unfold controlDrag; (try dsimp only); split_ifs <;> simp [*, isGsf]
@[simp] theorem controlAux_isGsf (x : In) (s : St) : (controlAux x s).log.countP isGsf = s.log.countP isGsf := by
  unfold controlAux; (try dsimp only); split_ifs <;> simp [*, isGsf]
@[simp] theorem controlFake_isGsf (x : In) (s : St) : (controlFake x s).log.countP isGsf = s.log.countP isGsf := by
  unfold controlFake; (try dsimp only); split_ifs <;> simp [*, isGsf]
@[simp] theorem requests_isGsf (x : In) (s : St) : (requests x s).log.countP isGsf = s.log.countP isGsf := by
  unfold requests; (try dsimp only); split_ifs <;> simp [*, isGsf]
@[simp] theorem tiltAlign_isGsf (x : In) (s : St) : (tiltAlign x s).log.countP isGsf = s.log.countP isGsf := by
  unfold tiltAlign; (try dsimp only); split_ifs <;> simp [*, isGsf]
@[simp] theorem flowArrival_isGsf (x : In) (s : St) : (flowArrival x s).log.countP isGsf = s.log.countP isGsf := by
  unfold flowArrival; (try dsimp only); split_ifs <;> simp [*, isGsf]

@[simp] theorem stopMag3D_isHeading (s : St) : (stopMag3D s).log.countP isHeading = s.log.countP isHeading := by
  unfold stopMag3D; (try dsimp only); split_ifs <;> simp [*, isHeading]
@[simp] theorem stopMagHdg_isHeading (s : St) : (stopMagHdg s).log.countP isHeading = s.log.countP isHeading := by
  unfold stopMagHdg; simp [isHeading]
@[simp] theorem clearMagCov_isHeading (s : St) : (clearMagCov s).log.countP isHeading = s.log.countP isHeading := by
  unfold clearMagCov; simp [isHeading]
@[simp] theorem stopMag_isHeading (s : St) : (stopMag s).log.countP isHeading = s.log.countP isHeading := by
  unfold stopMag; simp [isHeading]
@[simp] theorem startMagHdg_isHeading (s : St) : (startMagHdg s).log.countP isHeading = s.log.countP isHeading := by
  unfold startMagHdg; simp [isHeading]
@[simp] theorem startMag3D_isHeading (s : St) : (startMag3D s).log.countP isHeading = s.log.countP isHeading := by
  unfold startMag3D; (try dsimp only); split_ifs <;> simp [*, isHeading]
@[simp] theorem resetMagStates_isHeading (s : St) : (resetMagStates s).log.countP isHeading = s.log.countP isHeading := by
  unfold resetMagStates; (try dsimp only); split_ifs <;> simp [*, isHeading]
@[simp] theorem resetVel_isHeading (x : In) (s : St) : (resetVel x s).log.countP isHeading = s.log.countP isHeading := by
  unfold resetVel; simp [isHeading]
@[simp] theorem resetPos_isHeading (x : In) (s : St) : (resetPos x s).log.countP isHeading = s.log.countP isHeading := by
  unfold resetPos; simp [isHeading]
@[simp] theorem resetMagHeading_isHeading (x : In) (s : St) : (resetMagHeading x s).1.log.countP isHeading = s.log.countP isHeading := by
  unfold resetMagHeading; (try dsimp only); split_ifs <;> simp [*, isHeading]
@[simp] theorem declareFault_isHeading (s : St) : (declareFault s).log.countP isHeading = s.log.countP isHeading := by
  unfold declareFault; (try dsimp only); split_ifs <;> simp [*, isHeading]
@[simp] theorem courseYaw_isHeading (s : St) : (courseYaw s).log.countP isHeading = s.log.countP isHeading := by
  unfold courseYaw; (try dsimp only); split_ifs <;> simp [*, isHeading]
@[simp] theorem courseAlign_isHeading (x : In) (s : St) : (courseAlign x s).log.countP isHeading = s.log.countP isHeading := by
  unfold courseAlign; (try dsimp only); split_ifs <;> simp [*, isHeading]
@[simp] theorem realignYawGps_isHeading (x : In) (s : St) : (realignYawGps x s).1.log.countP isHeading = s.log.countP isHeading := by
  unfold realignYawGps; (try dsimp only); split_ifs <;> simp [*, isHeading]
@[simp] theorem resetYawToGsf_isHeading (x : In) (s : St) : (resetYawToGsf x s).1.log.countP isHeading = s.log.countP isHeading := by
  unfold resetYawToGsf; (try dsimp only); split_ifs <;> simp [*, isHeading]
@[simp] theorem fuseVelHor_isHeading (x : In) (ok : Bool) (s : St) : (fuseVelHor x ok s).log.countP isHeading = s.log.countP isHeading := by
  unfold fuseVelHor; (try dsimp only); split_ifs <;> simp [*, isHeading]
@[simp] theorem fusePos_isHeading (x : In) (v : PosVar) (ok : Bool) (s : St) : (fusePos x v ok s).log.countP isHeading = s.log.countP isHeading := by
  unfold fusePos; (try dsimp only); split_ifs <;> simp [*, isHeading]
@[simp] theorem otherStopped_isHeading (s : St) : (otherStopped s).log.countP isHeading = s.log.countP isHeading := by
  unfold otherStopped; simp [isHeading]
@[simp] theorem checkHagl_isHeading (x : In) (s : St) : (checkHagl x s).log.countP isHeading = s.log.countP isHeading := by
  unfold checkHagl; (try dsimp only); split_ifs <;> simp [*, isHeading]
@[simp] theorem groundYawReset_isHeading (x : In) (s : St) : (groundYawReset x s).log.countP isHeading = s.log.countP isHeading := by
  unfold groundYawReset; (try dsimp only); split_ifs <;> simp [*, isHeading]
@[simp] theorem airYawReset_isHeading (x : In) (s : St) : (airYawReset x s).log.countP isHeading = s.log.countP isHeading := by
  unfold airYawReset; (try dsimp only); split_ifs <;> simp [*, isHeading]
@[simp] theorem velPosReset_isHeading (x : In) (s : St) : (velPosReset x s).log.countP isHeading = s.log.countP isHeading := by
  unfold velPosReset; (try dsimp only); split_ifs <;> simp [*, isHeading]
@[simp] theorem check3D_isHeading (x : In) (s : St) : (check3D x s).log.countP isHeading = s.log.countP isHeading := by
  unfold check3D; (try dsimp only); split_ifs <;> simp [*, isHeading]
@[simp] theorem selectMagAuto_isHeading (x : In) (s : St) : (selectMagAuto x s).log.countP isHeading = s.log.countP isHeading := by
  unfold selectMagAuto; (try dsimp only); split_ifs <;> simp [*, isHeading]
@[simp] theorem selectMode_isHeading (x : In) (s : St) : (selectMode x s).log.countP isHeading = s.log.countP isHeading := by
  unfold selectMode; (try dsimp only); split_ifs <;> simp [*, isHeading]
@[simp] theorem checkDecl_isHeading (x : In) (s : St) : (checkDecl x s).log.countP isHeading = s.log.countP isHeading := by
  unfold checkDecl; simp [isHeading]
@[simp] theorem checkInhibition_isHeading (x : In) (s : St) : (checkInhibition x s).log.countP isHeading = s.log.countP isHeading := by
  unfold checkInhibition; (try dsimp only); split_ifs <;> simp [*, isHeading]
@[simp] theorem magPrepare_isHeading (x : In) (s : St) : (magPrepare x s).log.countP isHeading = s.log.countP isHeading := by
  unfold magPrepare; (try dsimp only); split_ifs <;> simp [*, isHeading]
@[simp] theorem startGps_isHeading (s : St) : (startGps s).log.countP isHeading = s.log.countP isHeading := by
  unfold startGps; (try dsimp only); split_ifs <;> simp [*, isHeading]
@[simp] theorem stopGps_isHeading (s : St) : (stopGps s).log.countP isHeading = s.log.countP isHeading := by
  unfold stopGps; simp [isHeading]
@[simp] theorem startGpsYaw_isHeading (s : St) : (startGpsYaw s).log.countP isHeading = s.log.countP isHeading := by
  unfold startGpsYaw; simp [isHeading]
@[simp] theorem gpsYawUse_isHeading (x : In) (s : St) : (gpsYawUse x s).log.countP isHeading = s.log.countP isHeading := by
  unfold gpsYawUse; (try dsimp only); split_ifs <;> simp [*, isHeading]
@[simp] theorem controlGpsYaw_isHeading (x : In) (s : St) : (controlGpsYaw x s).log.countP isHeading = s.log.countP isHeading := by
  unfold controlGpsYaw; (try dsimp only); split_ifs <;> simp [*, isHeading]
@[simp] theorem gpsHeading_isHeading (x : In) (s : St) : (gpsHeading x s).log.countP isHeading = s.log.countP isHeading := by
  unfold gpsHeading; (try dsimp only); split_ifs <;> simp [*, isHeading]
@[simp] theorem gpsStart_isHeading (x : In) (s : St) : (gpsStart x s).log.countP isHeading = s.log.countP isHeading := by
  unfold gpsStart; (try dsimp only); split_ifs <;> simp [*, isHeading]
@[simp] theorem gpsFailing_isHeading (x : In) (s : St) : (gpsFailing x s).log.countP isHeading = s.log.countP isHeading := by
  unfold gpsFailing; (try dsimp only); split_ifs <;> simp [*, isHeading]
@[simp] theorem gsfAlign_isHeading (x : In) (s : St) : (gsfAlign x s).log.countP isHeading = s.log.countP isHeading := by
  unfold gsfAlign; (try dsimp only); split_ifs <;> simp [*, isHeading]
@[simp] theorem gsfReset_isHeading (x : In) (s : St) : (gsfReset x s).log.countP isHeading = s.log.countP isHeading := by
  unfold gsfReset; (try dsimp only); split_ifs <;> simp [*, isHeading]
@[simp] theorem gpsTimeoutReset_isHeading (x : In) (s : St) : (gpsTimeoutReset x s).log.countP isHeading = s.log.countP isHeading := by
  unfold gpsTimeoutReset; (try dsimp only); split_ifs <;> simp [*, isHeading]
@[simp] theorem gpsResets_isHeading (x : In) (s : St) : (gpsResets x s).log.countP isHeading = s.log.countP isHeading := by
  unfold gpsResets; (try dsimp only); split_ifs <;> simp [*, isHeading]
@[simp] theorem gpsFuse_isHeading (x : In) (s : St) : (gpsFuse x s).log.countP isHeading = s.log.countP isHeading := by
  unfold gpsFuse; (try dsimp only); split_ifs <;> simp [*, isHeading]
@[simp] theorem controlGps_isHeading (x : In) (s : St) : (controlGps x s).log.countP isHeading = s.log.countP isHeading := by
  unfold controlGps; (try dsimp only); split_ifs <;> simp [*, isHeading]
@[simp] theorem flowMotion_isHeading (x : In) (s : St) : (flowMotion x s).log.countP isHeading = s.log.countP isHeading := by
  unfold flowMotion; (try dsimp only); split_ifs <;> simp [*, isHeading]
@[simp] theorem flowQuality_isHeading (x : In) (s : St) : (flowQuality x s).log.countP isHeading = s.log.countP isHeading := by
  unfold flowQuality; (try dsimp only); split_ifs <;> simp [*, isHeading]
@[simp] theorem stopFlow_isHeading (s : St) : (stopFlow s).log.countP isHeading = s.log.countP isHeading := by
  unfold stopFlow; simp [isHeading]
@[simp] theorem flowStart_isHeading (x : In) (s : St) : (flowStart x s).log.countP isHeading = s.log.countP isHeading := by
  unfold flowStart; (try dsimp only); split_ifs <;> simp [*, isHeading]
@[simp] theorem flowUse_isHeading (x : In) (s : St) : (flowUse x s).log.countP isHeading = s.log.countP isHeading := by
  unfold flowUse; (try dsimp only); split_ifs <;> simp [*, isHeading]
@[simp] theorem controlFlow_isHeading (x : In) (s : St) : (controlFlow x s).log.countP isHeading = s.log.countP isHeading := by
  unfold controlFlow; (try dsimp only); split_ifs <;> simp [*, isHeading]
@[simp] theorem evStart_isHeading (x : In) (s : St) : (evStart x s).log.countP isHeading = s.log.countP isHeading := by
  unfold evStart; (try dsimp only); split_ifs <;> simp [*, isHeading]
@[simp] theorem startEvYaw_isHeading (s : St) : (startEvYaw s).log.countP isHeading = s.log.countP isHeading := by
  unfold startEvYaw; simp [isHeading]
@[simp] theorem evYawStart_isHeading (x : In) (s : St) : (evYawStart x s).log.countP isHeading = s.log.countP isHeading := by
  unfold evYawStart; (try dsimp only); split_ifs <;> simp [*, isHeading]
@[simp] theorem evPosUse_isHeading (x : In) (s : St) : (evPosUse x s).log.countP isHeading = s.log.countP isHeading := by
  unfold evPosUse; (try dsimp only); split_ifs <;> simp [*, isHeading]
@[simp] theorem evVelUse_isHeading (x : In) (s : St) : (evVelUse x s).log.countP isHeading = s.log.countP isHeading := by
  unfold evVelUse; (try dsimp only); split_ifs <;> simp [*, isHeading]
@[simp] theorem stopEv_isHeading (s : St) : (stopEv s).log.countP isHeading = s.log.countP isHeading := by
  unfold stopEv; simp [isHeading]
@[simp] theorem controlAir_isHeading (x : In) (s : St) : (controlAir x s).log.countP isHeading = s.log.countP isHeading := by
  unfold controlAir; (try dsimp only); split_ifs <;> simp [*, isHeading]
@[simp] theorem controlBeta_isHeading (x : In) (s : St) : (controlBeta x s).log.countP isHeading = s.log.countP isHeading := by
  unfold controlBeta; (try dsimp only); split_ifs <;> simp [*, isHeading]
@[simp] theorem controlDrag_isHeading (x : In) (s : St) : (controlDrag x s).log.countP isHeading = s.log.countP isHeading := by
  unfold controlDrag; (try dsimp only); split_ifs <;> simp [*, isHeading]
@[simp] theorem controlAux_isHeading (x : In) (s : St) : (controlAux x s).log.countP isHeading = s.log.countP isHeading := by
  unfold controlAux; (try dsimp only); split_ifs <;> simp [*, isHeading]
@[simp] theorem controlFake_isHeading (x : In) (s : St) : (controlFake x s).log.countP isHeading = s.log.countP isHeading := by
  unfold controlFake; (try dsimp only); split_ifs <;> simp [*, isHeading]
@[simp] theorem requests_isHeading (x : In) (s : St) : (requests x s).log.countP isHeading = s.log.countP isHeading := by
  unfold requests; (try dsimp only); split_ifs <;> simp [*, isHeading]
@[simp] theorem tiltAlign_isHeading (x : In) (s : St) : (tiltAlign x s).log.countP isHeading = s.log.countP isHeading := by
  unfold tiltAlign; (try dsimp only); split_ifs <;> simp [*, isHeading]
@[simp] theorem flowArrival_isHeading (x : In) (s : St) : (flowArrival x s).log.countP isHeading = s.log.countP isHeading := by
  unfold flowArrival; (try dsimp only); split_ifs <;> simp [*, isHeading]

@[simp] theorem stopMag3D_isFix (s : St) : (stopMag3D s).log.countP isFix = s.log.countP isFix := by
  unfold stopMag3D; (try dsimp only); split_ifs <;> simp [*, isFix]
@[simp] theorem stopMagHdg_isFix (s : St) : (stopMagHdg s).log.countP isFix = s.log.countP isFix := by
  unfold stopMagHdg; simp [isFix]
@[simp] theorem clearMagCov_isFix (s : St) : (clearMagCov s).log.countP isFix = s.log.countP isFix := by
  unfold clearMagCov; simp [isFix]
@[simp] theorem stopMag_isFix (s : St) : (stopMag s).log.countP isFix = s.log.countP isFix := by
  unfold stopMag; simp [isFix]
@[simp] theorem startMagHdg_isFix (s : St) : (startMagHdg s).log.countP isFix = s.log.countP isFix := by
  unfold startMagHdg; simp [isFix]
@[simp] theorem startMag3D_isFix (s : St) : (startMag3D s).log.countP isFix = s.log.countP isFix := by
  unfold startMag3D; (try dsimp only); split_ifs <;> simp [*, isFix]
@[simp] theorem resetMagStates_isFix (s : St) : (resetMagStates s).log.countP isFix = s.log.countP isFix := by
  unfold resetMagStates; (try dsimp only); split_ifs <;> simp [*, isFix]
@[simp] theorem resetVel_isFix (x : In) (s : St) : (resetVel x s).log.countP isFix = s.log.countP isFix := by
  unfold resetVel; simp [isFix]
@[simp] theorem resetPos_isFix (x : In) (s : St) : (resetPos x s).log.countP isFix = s.log.countP isFix := by
  unfold resetPos; simp [isFix]
@[simp] theorem resetMagHeading_isFix (x : In) (s : St) : (resetMagHeading x s).1.log.countP isFix = s.log.countP isFix := by
  unfold resetMagHeading; (try dsimp only); split_ifs <;> simp [*, isFix]
@[simp] theorem declareFault_isFix (s : St) : (declareFault s).log.countP isFix = s.log.countP isFix := by
  unfold declareFault; (try dsimp only); split_ifs <;> simp [*, isFix]
@[simp] theorem courseYaw_isFix (s : St) : (courseYaw s).log.countP isFix = s.log.countP isFix := by
  unfold courseYaw; (try dsimp only); split_ifs <;> simp [*, isFix]
@[simp] theorem courseAlign_isFix (x : In) (s : St) : (courseAlign x s).log.countP isFix = s.log.countP isFix := by
  unfold courseAlign; (try dsimp only); split_ifs <;> simp [*, isFix]
@[simp] theorem realignYawGps_isFix (x : In) (s : St) : (realignYawGps x s).1.log.countP isFix = s.log.countP isFix := by
  unfold realignYawGps; (try dsimp only); split_ifs <;> simp [*, isFix]
@[simp] theorem resetYawToGsf_isFix (x : In) (s : St) : (resetYawToGsf x s).1.log.countP isFix = s.log.countP isFix := by
  unfold resetYawToGsf; (try dsimp only); split_ifs <;> simp [*, isFix]
@[simp] theorem fuseVelHor_isFix (x : In) (ok : Bool) (s : St) : (fuseVelHor x ok s).log.countP isFix = s.log.countP isFix := by
  unfold fuseVelHor; (try dsimp only); split_ifs <;> simp [*, isFix]
@[simp] theorem otherStopped_isFix (s : St) : (otherStopped s).log.countP isFix = s.log.countP isFix := by
  unfold otherStopped; simp [isFix]
@[simp] theorem checkHagl_isFix (x : In) (s : St) : (checkHagl x s).log.countP isFix = s.log.countP isFix := by
  unfold checkHagl; (try dsimp only); split_ifs <;> simp [*, isFix]
@[simp] theorem groundYawReset_isFix (x : In) (s : St) : (groundYawReset x s).log.countP isFix = s.log.countP isFix := by
  unfold groundYawReset; (try dsimp only); split_ifs <;> simp [*, isFix]
@[simp] theorem airYawReset_isFix (x : In) (s : St) : (airYawReset x s).log.countP isFix = s.log.countP isFix := by
  unfold airYawReset; (try dsimp only); split_ifs <;> simp [*, isFix]
@[simp] theorem velPosReset_isFix (x : In) (s : St) : (velPosReset x s).log.countP isFix = s.log.countP isFix := by
  unfold velPosReset; (try dsimp only); split_ifs <;> simp [*, isFix]
@[simp] theorem check3D_isFix (x : In) (s : St) : (check3D x s).log.countP isFix = s.log.countP isFix := by
  unfold check3D; (try dsimp only); split_ifs <;> simp [*, isFix]
@[simp] theorem selectMagAuto_isFix (x : In) (s : St) : (selectMagAuto x s).log.countP isFix = s.log.countP isFix := by
  unfold selectMagAuto; (try dsimp only); split_ifs <;> simp [*, isFix]
@[simp] theorem selectMode_isFix (x : In) (s : St) : (selectMode x s).log.countP isFix = s.log.countP isFix := by
  unfold selectMode; (try dsimp only); split_ifs <;> simp [*, isFix]
@[simp] theorem checkDecl_isFix (x : In) (s : St) : (checkDecl x s).log.countP isFix = s.log.countP isFix := by
  unfold checkDecl; simp [isFix]
@[simp] theorem checkInhibition_isFix (x : In) (s : St) : (checkInhibition x s).log.countP isFix = s.log.countP isFix := by
  unfold checkInhibition; (try dsimp only); split_ifs <;> simp [*, isFix]
@[simp] theorem runMagFusions_isFix (s : St) : (runMagFusions s).log.countP isFix = s.log.countP isFix := by
  unfold runMagFusions; (try dsimp only); split_ifs <;> simp [*, isFix]
@[simp] theorem magWithData_isFix (x : In) (s : St) : (magWithData x s).log.countP isFix = s.log.countP isFix := by
  unfold magWithData; (try dsimp only); split_ifs <;> simp [*, isFix]
@[simp] theorem magPrepare_isFix (x : In) (s : St) : (magPrepare x s).log.countP isFix = s.log.countP isFix := by
  unfold magPrepare; (try dsimp only); split_ifs <;> simp [*, isFix]
@[simp] theorem magMain_isFix (x : In) (s : St) : (magMain x s).log.countP isFix = s.log.countP isFix := by
  unfold magMain; (try dsimp only); split_ifs <;> simp [*, isFix]
@[simp] theorem controlMag_isFix (x : In) (s : St) : (controlMag x s).log.countP isFix = s.log.countP isFix := by
  unfold controlMag; (try dsimp only); split_ifs <;> simp [*, isFix]
@[simp] theorem startGps_isFix (s : St) : (startGps s).log.countP isFix = s.log.countP isFix := by
  unfold startGps; (try dsimp only); split_ifs <;> simp [*, isFix]
@[simp] theorem stopGps_isFix (s : St) : (stopGps s).log.countP isFix = s.log.countP isFix := by
  unfold stopGps; simp [isFix]
@[simp] theorem startGpsYaw_isFix (s : St) : (startGpsYaw s).log.countP isFix = s.log.countP isFix := by
  unfold startGpsYaw; simp [isFix]
@[simp] theorem gpsYawUse_isFix (x : In) (s : St) : (gpsYawUse x s).log.countP isFix = s.log.countP isFix := by
  unfold gpsYawUse; (try dsimp only); split_ifs <;> simp [*, isFix]
@[simp] theorem controlGpsYaw_isFix (x : In) (s : St) : (controlGpsYaw x s).log.countP isFix = s.log.countP isFix := by
  unfold controlGpsYaw; (try dsimp only); split_ifs <;> simp [*, isFix]
@[simp] theorem gpsHeading_isFix (x : In) (s : St) : (gpsHeading x s).log.countP isFix = s.log.countP isFix := by
  unfold gpsHeading; (try dsimp only); split_ifs <;> simp [*, isFix]
@[simp] theorem gpsStart_isFix (x : In) (s : St) : (gpsStart x s).log.countP isFix = s.log.countP isFix := by
  unfold gpsStart; (try dsimp only); split_ifs <;> simp [*, isFix]
@[simp] theorem gpsFailing_isFix (x : In) (s : St) : (gpsFailing x s).log.countP isFix = s.log.countP isFix := by
  unfold gpsFailing; (try dsimp only); split_ifs <;> simp [*, isFix]
@[simp] theorem gsfAlign_isFix (x : In) (s : St) : (gsfAlign x s).log.countP isFix = s.log.countP isFix := by
  unfold gsfAlign; (try dsimp only); split_ifs <;> simp [*, isFix]
@[simp] theorem gsfReset_isFix (x : In) (s : St) : (gsfReset x s).log.countP isFix = s.log.countP isFix := by
  unfold gsfReset; (try dsimp only); split_ifs <;> simp [*, isFix]
@[simp] theorem gpsTimeoutReset_isFix (x : In) (s : St) : (gpsTimeoutReset x s).log.countP isFix = s.log.countP isFix := by
  unfold gpsTimeoutReset; (try dsimp only); split_ifs <;> simp [*, isFix]
@[simp] theorem gpsResets_isFix (x : In) (s : St) : (gpsResets x s).log.countP isFix = s.log.countP isFix := by
  unfold gpsResets; (try dsimp only); split_ifs <;> simp [*, isFix]
@[simp] theorem flowMotion_isFix (x : In) (s : St) : (flowMotion x s).log.countP isFix = s.log.countP isFix := by
  unfold flowMotion; (try dsimp only); split_ifs <;> simp [*, isFix]
@[simp] theorem flowQuality_isFix (x : In) (s : St) : (flowQuality x s).log.countP isFix = s.log.countP isFix := by
  unfold flowQuality; (try dsimp only); split_ifs <;> simp [*, isFix]
@[simp] theorem stopFlow_isFix (s : St) : (stopFlow s).log.countP isFix = s.log.countP isFix := by
  unfold stopFlow; simp [isFix]
@[simp] theorem flowStart_isFix (x : In) (s : St) : (flowStart x s).log.countP isFix = s.log.countP isFix := by
  unfold flowStart; (try dsimp only); split_ifs <;> simp [*, isFix]
@[simp] theorem flowUse_isFix (x : In) (s : St) : (flowUse x s).log.countP isFix = s.log.countP isFix := by
  unfold flowUse; (try dsimp only); split_ifs <;> simp [*, isFix]
@[simp] theorem controlFlow_isFix (x : In) (s : St) : (controlFlow x s).log.countP isFix = s.log.countP isFix := by
  unfold controlFlow; (try dsimp only); split_ifs <;> simp [*, isFix]
@[simp] theorem evStart_isFix (x : In) (s : St) : (evStart x s).log.countP isFix = s.log.countP isFix := by
  unfold evStart; (try dsimp only); split_ifs <;> simp [*, isFix]
@[simp] theorem startEvYaw_isFix (s : St) : (startEvYaw s).log.countP isFix = s.log.countP isFix := by
  unfold startEvYaw; simp [isFix]
@[simp] theorem evYawStart_isFix (x : In) (s : St) : (evYawStart x s).log.countP isFix = s.log.countP isFix := by
  unfold evYawStart; (try dsimp only); split_ifs <;> simp [*, isFix]
@[simp] theorem evVelUse_isFix (x : In) (s : St) : (evVelUse x s).log.countP isFix = s.log.countP isFix := by
  unfold evVelUse; (try dsimp only); split_ifs <;> simp [*, isFix]
@[simp] theorem stopEv_isFix (s : St) : (stopEv s).log.countP isFix = s.log.countP isFix := by
  unfold stopEv; simp [isFix]
@[simp] theorem controlAir_isFix (x : In) (s : St) : (controlAir x s).log.countP isFix = s.log.countP isFix := by
  unfold controlAir; (try dsimp only); split_ifs <;> simp [*, isFix]
@[simp] theorem controlBeta_isFix (x : In) (s : St) : (controlBeta x s).log.countP isFix = s.log.countP isFix := by
  unfold controlBeta; (try dsimp only); split_ifs <;> simp [*, isFix]
@[simp] theorem controlDrag_isFix (x : In) (s : St) : (controlDrag x s).log.countP isFix = s.log.countP isFix := by
  unfold controlDrag; (try dsimp only); split_ifs <;> simp [*, isFix]
@[simp] theorem controlAux_isFix (x : In) (s : St) : (controlAux x s).log.countP isFix = s.log.countP isFix := by
  unfold controlAux; (try dsimp only); split_ifs <;> simp [*, isFix]
@[simp] theorem requests_isFix (x : In) (s : St) : (requests x s).log.countP isFix = s.log.countP isFix := by
  unfold requests; (try dsimp only); split_ifs <;> simp [*, isFix]
@[simp] theorem tiltAlign_isFix (x : In) (s : St) : (tiltAlign x s).log.countP isFix = s.log.countP isFix := by
  unfold tiltAlign; (try dsimp only); split_ifs <;> simp [*, isFix]
@[simp] theorem flowArrival_isFix (x : In) (s : St) : (flowArrival x s).log.countP isFix = s.log.countP isFix := by
  unfold flowArrival; (try dsimp only); split_ifs <;> simp [*, isFix]

@[simp] theorem stopMag3D_isGpsYaw (s : St) : (stopMag3D s).log.countP isGpsYaw = s.log.countP isGpsYaw := by
  unfold stopMag3D; (try dsimp only); split_ifs <;> simp [*, isGpsYaw]
@[simp] theorem stopMagHdg_isGpsYaw (s : St) : (stopMagHdg s).log.countP isGpsYaw = s.log.countP isGpsYaw := by
  unfold stopMagHdg; simp [isGpsYaw]
@[simp] theorem clearMagCov_isGpsYaw (s : St) : (clearMagCov s).log.countP isGpsYaw = s.log.countP isGpsYaw := by
  unfold clearMagCov; simp [isGpsYaw]
@[simp] theorem stopMag_isGpsYaw (s : St) : (stopMag s).log.countP isGpsYaw = s.log.countP isGpsYaw := by
  unfold stopMag; simp [isGpsYaw]
@[simp] theorem startMagHdg_isGpsYaw (s : St) : (startMagHdg s).log.countP isGpsYaw = s.log.countP isGpsYaw := by
  unfold startMagHdg; simp [isGpsYaw]
@[simp] theorem startMag3D_isGpsYaw (s : St) : (startMag3D s).log.countP isGpsYaw = s.log.countP isGpsYaw := by
  unfold startMag3D; (try dsimp only); split_ifs <;> simp [*, isGpsYaw]
@[simp] theorem resetMagStates_isGpsYaw (s : St) : (resetMagStates s).log.countP isGpsYaw = s.log.countP isGpsYaw := by
  unfold resetMagStates; (try dsimp only); split_ifs <;> simp [*, isGpsYaw]
@[simp] theorem resetVel_isGpsYaw (x : In) (s : St) : (resetVel x s).log.countP isGpsYaw = s.log.countP isGpsYaw := by
  unfold resetVel; simp [isGpsYaw]
@[simp] theorem resetPos_isGpsYaw (x : In) (s : St) : (resetPos x s).log.countP isGpsYaw = s.log.countP isGpsYaw := by
  unfold resetPos; simp [isGpsYaw]
@[simp] theorem resetMagHeading_isGpsYaw (x : In) (s : St) : (resetMagHeading x s).1.log.countP isGpsYaw = s.log.countP isGpsYaw := by
  unfold resetMagHeading; (try dsimp only); split_ifs <;> simp [*, isGpsYaw]
@[simp] theorem declareFault_isGpsYaw (s : St) : (declareFault s).log.countP isGpsYaw = s.log.countP isGpsYaw := by
  unfold declareFault; (try dsimp only); split_ifs <;> simp [*, isGpsYaw]
@[simp] theorem courseYaw_isGpsYaw (s : St) : (courseYaw s).log.countP isGpsYaw = s.log.countP isGpsYaw := by
  unfold courseYaw; (try dsimp only); split_ifs <;> simp [*, isGpsYaw]
@[simp] theorem courseAlign_isGpsYaw (x : In) (s : St) : (courseAlign x s).log.countP isGpsYaw = s.log.countP isGpsYaw := by
  unfold courseAlign; (try dsimp only); split_ifs <;> simp [*, isGpsYaw]
@[simp] theorem realignYawGps_isGpsYaw (x : In) (s : St) : (realignYawGps x s).1.log.countP isGpsYaw = s.log.countP isGpsYaw := by
  unfold realignYawGps; (try dsimp only); split_ifs <;> simp [*, isGpsYaw]
@[simp] theorem resetYawToGsf_isGpsYaw (x : In) (s : St) : (resetYawToGsf x s).1.log.countP isGpsYaw = s.log.countP isGpsYaw := by
  unfold resetYawToGsf; (try dsimp only); split_ifs <;> simp [*, isGpsYaw]
@[simp] theorem fuseVelHor_isGpsYaw (x : In) (ok : Bool) (s : St) : (fuseVelHor x ok s).log.countP isGpsYaw = s.log.countP isGpsYaw := by
  unfold fuseVelHor; (try dsimp only); split_ifs <;> simp [*, isGpsYaw]
@[simp] theorem fusePos_isGpsYaw (x : In) (v : PosVar) (ok : Bool) (s : St) : (fusePos x v ok s).log.countP isGpsYaw = s.log.countP isGpsYaw := by
  unfold fusePos; (try dsimp only); split_ifs <;> simp [*, isGpsYaw]
@[simp] theorem otherStopped_isGpsYaw (s : St) : (otherStopped s).log.countP isGpsYaw = s.log.countP isGpsYaw := by
  unfold otherStopped; simp [isGpsYaw]
@[simp] theorem checkHagl_isGpsYaw (x : In) (s : St) : (checkHagl x s).log.countP isGpsYaw = s.log.countP isGpsYaw := by
  unfold checkHagl; (try dsimp only); split_ifs <;> simp [*, isGpsYaw]
@[simp] theorem groundYawReset_isGpsYaw (x : In) (s : St) : (groundYawReset x s).log.countP isGpsYaw = s.log.countP isGpsYaw := by
  unfold groundYawReset; (try dsimp only); split_ifs <;> simp [*, isGpsYaw]
@[simp] theorem airYawReset_isGpsYaw (x : In) (s : St) : (airYawReset x s).log.countP isGpsYaw = s.log.countP isGpsYaw := by
  unfold airYawReset; (try dsimp only); split_ifs <;> simp [*, isGpsYaw]
@[simp] theorem velPosReset_isGpsYaw (x : In) (s : St) : (velPosReset x s).log.countP isGpsYaw = s.log.countP isGpsYaw := by
  unfold velPosReset; (try dsimp only); split_ifs <;> simp [*, isGpsYaw]
@[simp] theorem check3D_isGpsYaw (x : In) (s : St) : (check3D x s).log.countP isGpsYaw = s.log.countP isGpsYaw := by
  unfold check3D; (try dsimp only); split_ifs <;> simp [*, isGpsYaw]
@[simp] theorem selectMagAuto_isGpsYaw (x : In) (s : St) : (selectMagAuto x s).log.countP isGpsYaw = s.log.countP isGpsYaw := by
  unfold selectMagAuto; (try dsimp only); split_ifs <;> simp [*, isGpsYaw]
@[simp] theorem selectMode_isGpsYaw (x : In) (s : St) : (selectMode x s).log.countP isGpsYaw = s.log.countP isGpsYaw := by
  unfold selectMode; (try dsimp only); split_ifs <;> simp [*, isGpsYaw]
@[simp] theorem checkDecl_isGpsYaw (x : In) (s : St) : (checkDecl x s).log.countP isGpsYaw = s.log.countP isGpsYaw := by
  unfold checkDecl; simp [isGpsYaw]
@[simp] theorem checkInhibition_isGpsYaw (x : In) (s : St) : (checkInhibition x s).log.countP isGpsYaw = s.log.countP isGpsYaw := by
  unfold checkInhibition; (try dsimp only); split_ifs <;> simp [*, isGpsYaw]
@[simp] theorem runMagFusions_isGpsYaw (s : St) : (runMagFusions s).log.countP isGpsYaw = s.log.countP isGpsYaw := by
  unfold runMagFusions; (try dsimp only); split_ifs <;> simp [*, isGpsYaw]
@[simp] theorem magWithData_isGpsYaw (x : In) (s : St) : (magWithData x s).log.countP isGpsYaw = s.log.countP isGpsYaw := by
  unfold magWithData; (try dsimp only); split_ifs <;> simp [*, isGpsYaw]
@[simp] theorem magPrepare_isGpsYaw (x : In) (s : St) : (magPrepare x s).log.countP isGpsYaw = s.log.countP isGpsYaw := by
  unfold magPrepare; (try dsimp only); split_ifs <;> simp [*, isGpsYaw]
@[simp] theorem magMain_isGpsYaw (x : In) (s : St) : (magMain x s).log.countP isGpsYaw = s.log.countP isGpsYaw := by
  unfold magMain; (try dsimp only); split_ifs <;> simp [*, isGpsYaw]
@[simp] theorem controlMag_isGpsYaw (x : In) (s : St) : (controlMag x s).log.countP isGpsYaw = s.log.countP isGpsYaw := by
  unfold controlMag; (try dsimp only); split_ifs <;> simp [*, isGpsYaw]
@[simp] theorem startGps_isGpsYaw (s : St) : (startGps s).log.countP isGpsYaw = s.log.countP isGpsYaw := by
  unfold startGps; (try dsimp only); split_ifs <;> simp [*, isGpsYaw]
@[simp] theorem stopGps_isGpsYaw (s : St) : (stopGps s).log.countP isGpsYaw = s.log.countP isGpsYaw := by
  unfold stopGps; simp [isGpsYaw]
@[simp] theorem startGpsYaw_isGpsYaw (s : St) : (startGpsYaw s).log.countP isGpsYaw = s.log.countP isGpsYaw := by
  unfold startGpsYaw; simp [isGpsYaw]
@[simp] theorem gpsHeading_isGpsYaw (x : In) (s : St) : (gpsHeading x s).log.countP isGpsYaw = s.log.countP isGpsYaw := by
  unfold gpsHeading; (try dsimp only); split_ifs <;> simp [*, isGpsYaw]
@[simp] theorem gpsStart_isGpsYaw (x : In) (s : St) : (gpsStart x s).log.countP isGpsYaw = s.log.countP isGpsYaw := by
  unfold gpsStart; (try dsimp only); split_ifs <;> simp [*, isGpsYaw]
@[simp] theorem gpsFailing_isGpsYaw (x : In) (s : St) : (gpsFailing x s).log.countP isGpsYaw = s.log.countP isGpsYaw := by
  unfold gpsFailing; (try dsimp only); split_ifs <;> simp [*, isGpsYaw]
@[simp] theorem gsfAlign_isGpsYaw (x : In) (s : St) : (gsfAlign x s).log.countP isGpsYaw = s.log.countP isGpsYaw := by
  unfold gsfAlign; (try dsimp only); split_ifs <;> simp [*, isGpsYaw]
@[simp] theorem gsfReset_isGpsYaw (x : In) (s : St) : (gsfReset x s).log.countP isGpsYaw = s.log.countP isGpsYaw := by
  unfold gsfReset; (try dsimp only); split_ifs <;> simp [*, isGpsYaw]
@[simp] theorem gpsTimeoutReset_isGpsYaw (x : In) (s : St) : (gpsTimeoutReset x s).log.countP isGpsYaw = s.log.countP isGpsYaw := by
  unfold gpsTimeoutReset; (try dsimp only); split_ifs <;> simp [*, isGpsYaw]
@[simp] theorem gpsResets_isGpsYaw (x : In) (s : St) : (gpsResets x s).log.countP isGpsYaw = s.log.countP isGpsYaw := by
  unfold gpsResets; (try dsimp only); split_ifs <;> simp [*, isGpsYaw]
@[simp] theorem gpsFuse_isGpsYaw (x : In) (s : St) : (gpsFuse x s).log.countP isGpsYaw = s.log.countP isGpsYaw := by
  unfold gpsFuse; (try dsimp only); split_ifs <;> simp [*, isGpsYaw]
@[simp] theorem flowMotion_isGpsYaw (x : In) (s : St) : (flowMotion x s).log.countP isGpsYaw = s.log.countP isGpsYaw := by
  unfold flowMotion; (try dsimp only); split_ifs <;> simp [*, isGpsYaw]
@[simp] theorem flowQuality_isGpsYaw (x : In) (s : St) : (flowQuality x s).log.countP isGpsYaw = s.log.countP isGpsYaw := by
  unfold flowQuality; (try dsimp only); split_ifs <;> simp [*, isGpsYaw]
@[simp] theorem stopFlow_isGpsYaw (s : St) : (stopFlow s).log.countP isGpsYaw = s.log.countP isGpsYaw := by
  unfold stopFlow; simp [isGpsYaw]
@[simp] theorem flowStart_isGpsYaw (x : In) (s : St) : (flowStart x s).log.countP isGpsYaw = s.log.countP isGpsYaw := by
  unfold flowStart; (try dsimp only); split_ifs <;> simp [*, isGpsYaw]
@[simp] theorem flowUse_isGpsYaw (x : In) (s : St) : (flowUse x s).log.countP isGpsYaw = s.log.countP isGpsYaw := by
  unfold flowUse; (try dsimp only); split_ifs <;> simp [*, isGpsYaw]
@[simp] theorem controlFlow_isGpsYaw (x : In) (s : St) : (controlFlow x s).log.countP isGpsYaw = s.log.countP isGpsYaw := by
  unfold controlFlow; (try dsimp only); split_ifs <;> simp [*, isGpsYaw]
@[simp] theorem evStart_isGpsYaw (x : In) (s : St) : (evStart x s).log.countP isGpsYaw = s.log.countP isGpsYaw := by
  unfold evStart; (try dsimp only); split_ifs <;> simp [*, isGpsYaw]
@[simp] theorem startEvYaw_isGpsYaw (s : St) : (startEvYaw s).log.countP isGpsYaw = s.log.countP isGpsYaw := by
  unfold startEvYaw; simp [isGpsYaw]
@[simp] theorem evYawStart_isGpsYaw (x : In) (s : St) : (evYawStart x s).log.countP isGpsYaw = s.log.countP isGpsYaw := by
  unfold evYawStart; (try dsimp only); split_ifs <;> simp [*, isGpsYaw]
@[simp] theorem evPosUse_isGpsYaw (x : In) (s : St) : (evPosUse x s).log.countP isGpsYaw = s.log.countP isGpsYaw := by
  unfold evPosUse; (try dsimp only); split_ifs <;> simp [*, isGpsYaw]
@[simp] theorem evVelUse_isGpsYaw (x : In) (s : St) : (evVelUse x s).log.countP isGpsYaw = s.log.countP isGpsYaw := by
  unfold evVelUse; (try dsimp only); split_ifs <;> simp [*, isGpsYaw]
@[simp] theorem stopEv_isGpsYaw (s : St) : (stopEv s).log.countP isGpsYaw = s.log.countP isGpsYaw := by
  unfold stopEv; simp [isGpsYaw]
@[simp] theorem controlEv_isGpsYaw (x : In) (s : St) : (controlEv x s).log.countP isGpsYaw = s.log.countP isGpsYaw := by
  unfold controlEv; (try dsimp only); split_ifs <;> simp [*, isGpsYaw]
@[simp] theorem controlAir_isGpsYaw (x : In) (s : St) : (controlAir x s).log.countP isGpsYaw = s.log.countP isGpsYaw := by
  unfold controlAir; (try dsimp only); split_ifs <;> simp [*, isGpsYaw]
@[simp] theorem controlBeta_isGpsYaw (x : In) (s : St) : (controlBeta x s).log.countP isGpsYaw = s.log.countP isGpsYaw := by
  unfold controlBeta; (try dsimp only); split_ifs <;> simp [*, isGpsYaw]
@[simp] theorem controlDrag_isGpsYaw (x : In) (s : St) : (controlDrag x s).log.countP isGpsYaw = s.log.countP isGpsYaw := by
  unfold controlDrag; (try dsimp only); split_ifs <;> simp [*, isGpsYaw]
@[simp] theorem controlAux_isGpsYaw (x : In) (s : St) : (controlAux x s).log.countP isGpsYaw = s.log.countP isGpsYaw := by
  unfold controlAux; (try dsimp only); split_ifs <;> simp [*, isGpsYaw]
@[simp] theorem controlFake_isGpsYaw (x : In) (s : St) : (controlFake x s).log.countP isGpsYaw = s.log.countP isGpsYaw := by
  unfold controlFake; (try dsimp only); split_ifs <;> simp [*, isGpsYaw]
@[simp] theorem requests_isGpsYaw (x : In) (s : St) : (requests x s).log.countP isGpsYaw = s.log.countP isGpsYaw := by
  unfold requests; (try dsimp only); split_ifs <;> simp [*, isGpsYaw]
@[simp] theorem tiltAlign_isGpsYaw (x : In) (s : St) : (tiltAlign x s).log.countP isGpsYaw = s.log.countP isGpsYaw := by
  unfold tiltAlign; (try dsimp only); split_ifs <;> simp [*, isGpsYaw]
@[simp] theorem flowArrival_isGpsYaw (x : In) (s : St) : (flowArrival x s).log.countP isGpsYaw = s.log.countP isGpsYaw := by
  unfold flowArrival; (try dsimp only); split_ifs <;> simp [*, isGpsYaw]

end Ecl.Aid
