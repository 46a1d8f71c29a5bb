import Verif.Aid.Frame

/-! Generated by tools/gen_aid_frame.py: operations and events already recorded are never removed by a later operation of the step. -/

namespace Ecl.Aid

set_option linter.unusedTactic false
set_option linter.unreachableTactic false

theorem act_mem (s : St) (a k : Act) (h : k ∈ s.log) : k ∈ (s.act a).log := List.mem_append_left _ h
theorem evt_mem (s : St) (e k : Evt) (h : k ∈ s.evts) : k ∈ (s.evt e).evts := List.mem_append_left _ h
theorem act_evts_mem (s : St) (a : Act) (k : Evt) (h : k ∈ s.evts) : k ∈ (s.act a).evts := h
theorem evt_log_mem (s : St) (e : Evt) (k : Act) (h : k ∈ s.log) : k ∈ (s.evt e).log := h
theorem stopMag3D_log_mem (s : St) (k : Act) (h : k ∈ s.log) : k ∈ (stopMag3D s).log := by
  unfold stopMag3D; (try dsimp only); split_ifs <;> (repeat (first | assumption | dsimp only | with_reducible apply act_mem | with_reducible apply evt_log_mem))
theorem stopMag3D_evts_mem (s : St) (k : Evt) (h : k ∈ s.evts) : k ∈ (stopMag3D s).evts := by
  unfold stopMag3D; (try dsimp only); split_ifs <;> (repeat (first | assumption | dsimp only | with_reducible apply act_evts_mem | with_reducible apply evt_mem))
theorem stopMagHdg_log_mem (s : St) (k : Act) (h : k ∈ s.log) : k ∈ (stopMagHdg s).log := by
  unfold stopMagHdg; repeat (first | assumption | dsimp only | with_reducible apply act_mem | with_reducible apply evt_log_mem)
theorem stopMagHdg_evts_mem (s : St) (k : Evt) (h : k ∈ s.evts) : k ∈ (stopMagHdg s).evts := by
  unfold stopMagHdg; repeat (first | assumption | dsimp only | with_reducible apply act_evts_mem | with_reducible apply evt_mem)
theorem clearMagCov_log_mem (s : St) (k : Act) (h : k ∈ s.log) : k ∈ (clearMagCov s).log := by
  unfold clearMagCov; repeat (first | assumption | dsimp only | with_reducible apply act_mem | with_reducible apply evt_log_mem)
theorem clearMagCov_evts_mem (s : St) (k : Evt) (h : k ∈ s.evts) : k ∈ (clearMagCov s).evts := by
  unfold clearMagCov; repeat (first | assumption | dsimp only | with_reducible apply act_evts_mem | with_reducible apply evt_mem)
theorem stopMag_log_mem (s : St) (k : Act) (h : k ∈ s.log) : k ∈ (stopMag s).log := by
  unfold stopMag; repeat (first | assumption | dsimp only | with_reducible apply act_mem | with_reducible apply evt_log_mem | with_reducible apply stopMag3D_log_mem | with_reducible apply stopMagHdg_log_mem | with_reducible apply clearMagCov_log_mem)
theorem stopMag_evts_mem (s : St) (k : Evt) (h : k ∈ s.evts) : k ∈ (stopMag s).evts := by
  unfold stopMag; repeat (first | assumption | dsimp only | with_reducible apply act_evts_mem | with_reducible apply evt_mem | with_reducible apply stopMag3D_evts_mem | with_reducible apply stopMagHdg_evts_mem | with_reducible apply clearMagCov_evts_mem)
theorem startMagHdg_log_mem (s : St) (k : Act) (h : k ∈ s.log) : k ∈ (startMagHdg s).log := by
  unfold startMagHdg; repeat (first | assumption | dsimp only | with_reducible apply act_mem | with_reducible apply evt_log_mem | with_reducible apply stopMag3D_log_mem)
theorem startMagHdg_evts_mem (s : St) (k : Evt) (h : k ∈ s.evts) : k ∈ (startMagHdg s).evts := by
  unfold startMagHdg; repeat (first | assumption | dsimp only | with_reducible apply act_evts_mem | with_reducible apply evt_mem | with_reducible apply stopMag3D_evts_mem)
theorem startMag3D_log_mem (s : St) (k : Act) (h : k ∈ s.log) : k ∈ (startMag3D s).log := by
  unfold startMag3D; (try dsimp only); split_ifs <;> (repeat (first | assumption | dsimp only | with_reducible apply act_mem | with_reducible apply evt_log_mem | with_reducible apply stopMagHdg_log_mem))
theorem startMag3D_evts_mem (s : St) (k : Evt) (h : k ∈ s.evts) : k ∈ (startMag3D s).evts := by
  unfold startMag3D; (try dsimp only); split_ifs <;> (repeat (first | assumption | dsimp only | with_reducible apply act_evts_mem | with_reducible apply evt_mem | with_reducible apply stopMagHdg_evts_mem))
theorem resetMagStates_log_mem (s : St) (k : Act) (h : k ∈ s.log) : k ∈ (resetMagStates s).log := by
  cases h3 : s.mag3D <;> simp [resetMagStates, h3, h, St.act]
theorem resetMagStates_evts_mem (s : St) (k : Evt) (h : k ∈ s.evts) : k ∈ (resetMagStates s).evts := by
  cases h3 : s.mag3D <;> simp [resetMagStates, h3, h, St.act]
theorem resetVel_log_mem (x : In) (s : St) (k : Act) (h : k ∈ s.log) : k ∈ (resetVel x s).log := by
  unfold resetVel; simp [h, act_mem, act_evts_mem, -act_log]
theorem resetVel_evts_mem (x : In) (s : St) (k : Evt) (h : k ∈ s.evts) : k ∈ (resetVel x s).evts := by
  unfold resetVel; simp [h, act_mem, act_evts_mem, -act_log]
theorem resetPos_log_mem (x : In) (s : St) (k : Act) (h : k ∈ s.log) : k ∈ (resetPos x s).log := by
  unfold resetPos; simp [h, act_mem, act_evts_mem, -act_log]
theorem resetPos_evts_mem (x : In) (s : St) (k : Evt) (h : k ∈ s.evts) : k ∈ (resetPos x s).evts := by
  unfold resetPos; simp [h, act_mem, act_evts_mem, -act_log]
theorem resetMagHeading_log_mem (x : In) (s : St) (k : Act) (h : k ∈ s.log) : k ∈ (resetMagHeading x s).1.log := by
  unfold resetMagHeading; (try dsimp only); split_ifs <;> (repeat (first | assumption | dsimp only | with_reducible apply act_mem | with_reducible apply evt_log_mem | with_reducible apply stopMag_log_mem | with_reducible apply resetMagStates_log_mem))
theorem resetMagHeading_evts_mem (x : In) (s : St) (k : Evt) (h : k ∈ s.evts) : k ∈ (resetMagHeading x s).1.evts := by
  unfold resetMagHeading; (try dsimp only); split_ifs <;> (repeat (first | assumption | dsimp only | with_reducible apply act_evts_mem | with_reducible apply evt_mem | with_reducible apply stopMag_evts_mem | with_reducible apply resetMagStates_evts_mem))
theorem declareFault_log_mem (s : St) (k : Act) (h : k ∈ s.log) : k ∈ (declareFault s).log := by
  unfold declareFault; (try dsimp only); split_ifs <;> (repeat (first | assumption | dsimp only | with_reducible apply act_mem | with_reducible apply evt_log_mem))
theorem declareFault_evts_mem (s : St) (k : Evt) (h : k ∈ s.evts) : k ∈ (declareFault s).evts := by
  unfold declareFault; (try dsimp only); split_ifs <;> (repeat (first | assumption | dsimp only | with_reducible apply act_evts_mem | with_reducible apply evt_mem))
theorem courseYaw_log_mem (s : St) (k : Act) (h : k ∈ s.log) : k ∈ (courseYaw s).log := by
  unfold courseYaw; (try dsimp only); split_ifs <;> (repeat (first | assumption | dsimp only | with_reducible apply act_mem | with_reducible apply evt_log_mem))
theorem courseYaw_evts_mem (s : St) (k : Evt) (h : k ∈ s.evts) : k ∈ (courseYaw s).evts := by
  unfold courseYaw; (try dsimp only); split_ifs <;> (repeat (first | assumption | dsimp only | with_reducible apply act_evts_mem | with_reducible apply evt_mem))
theorem courseAlign_log_mem (x : In) (s : St) (k : Act) (h : k ∈ s.log) : k ∈ (courseAlign x s).log := by
  unfold courseAlign; (try dsimp only); split_ifs <;> (repeat (first | assumption | dsimp only | with_reducible apply act_mem | with_reducible apply evt_log_mem | with_reducible apply resetMagStates_log_mem | with_reducible apply declareFault_log_mem | with_reducible apply courseYaw_log_mem))
theorem courseAlign_evts_mem (x : In) (s : St) (k : Evt) (h : k ∈ s.evts) : k ∈ (courseAlign x s).evts := by
  unfold courseAlign; (try dsimp only); split_ifs <;> (repeat (first | assumption | dsimp only | with_reducible apply act_evts_mem | with_reducible apply evt_mem | with_reducible apply resetMagStates_evts_mem | with_reducible apply declareFault_evts_mem | with_reducible apply courseYaw_evts_mem))
theorem realignYawGps_log_mem (x : In) (s : St) (k : Act) (h : k ∈ s.log) : k ∈ (realignYawGps x s).1.log := by
  unfold realignYawGps; (try dsimp only); split_ifs <;> (repeat (first | assumption | dsimp only | with_reducible apply act_mem | with_reducible apply evt_log_mem | with_reducible apply resetMagHeading_log_mem | with_reducible apply courseAlign_log_mem))
theorem realignYawGps_evts_mem (x : In) (s : St) (k : Evt) (h : k ∈ s.evts) : k ∈ (realignYawGps x s).1.evts := by
  unfold realignYawGps; (try dsimp only); split_ifs <;> (repeat (first | assumption | dsimp only | with_reducible apply act_evts_mem | with_reducible apply evt_mem | with_reducible apply resetMagHeading_evts_mem | with_reducible apply courseAlign_evts_mem))
theorem resetYawToGsf_log_mem (x : In) (s : St) (k : Act) (h : k ∈ s.log) : k ∈ (resetYawToGsf x s).1.log := by
  simp only [resetYawToGsf, resetPos, resetVel, fusePos, St.act, St.evt]; split_ifs <;> simp [h]
theorem resetYawToGsf_evts_mem (x : In) (s : St) (k : Evt) (h : k ∈ s.evts) : k ∈ (resetYawToGsf x s).1.evts := by
  simp only [resetYawToGsf, resetPos, resetVel, fusePos, St.act, St.evt]; split_ifs <;> simp [h]
theorem fuseVelHor_log_mem (x : In) (ok : Bool) (s : St) (k : Act) (h : k ∈ s.log) : k ∈ (fuseVelHor x ok s).log := by
  unfold fuseVelHor; (try dsimp only); split_ifs <;> (repeat (first | assumption | dsimp only | with_reducible apply act_mem | with_reducible apply evt_log_mem))
theorem fuseVelHor_evts_mem (x : In) (ok : Bool) (s : St) (k : Evt) (h : k ∈ s.evts) : k ∈ (fuseVelHor x ok s).evts := by
  unfold fuseVelHor; (try dsimp only); split_ifs <;> (repeat (first | assumption | dsimp only | with_reducible apply act_evts_mem | with_reducible apply evt_mem))
theorem fusePos_log_mem (x : In) (v : PosVar) (ok : Bool) (s : St) (k : Act) (h : k ∈ s.log) : k ∈ (fusePos x v ok s).log := by
  unfold fusePos; (try dsimp only); split_ifs <;> (repeat (first | assumption | dsimp only | with_reducible apply act_mem | with_reducible apply evt_log_mem))
theorem fusePos_evts_mem (x : In) (v : PosVar) (ok : Bool) (s : St) (k : Evt) (h : k ∈ s.evts) : k ∈ (fusePos x v ok s).evts := by
  unfold fusePos; (try dsimp only); split_ifs <;> (repeat (first | assumption | dsimp only | with_reducible apply act_evts_mem | with_reducible apply evt_mem))
theorem otherStopped_log_mem (s : St) (k : Act) (h : k ∈ s.log) : k ∈ (otherStopped s).log := by
  unfold otherStopped; repeat (first | assumption | dsimp only | with_reducible apply act_mem | with_reducible apply evt_log_mem)
theorem otherStopped_evts_mem (s : St) (k : Evt) (h : k ∈ s.evts) : k ∈ (otherStopped s).evts := by
  unfold otherStopped; repeat (first | assumption | dsimp only | with_reducible apply act_evts_mem | with_reducible apply evt_mem)
theorem checkHagl_log_mem (x : In) (s : St) (k : Act) (h : k ∈ s.log) : k ∈ (checkHagl x s).log := by
  unfold checkHagl; (try dsimp only); split_ifs <;> (repeat (first | assumption | dsimp only | with_reducible apply act_mem | with_reducible apply evt_log_mem))
theorem checkHagl_evts_mem (x : In) (s : St) (k : Evt) (h : k ∈ s.evts) : k ∈ (checkHagl x s).evts := by
  unfold checkHagl; (try dsimp only); split_ifs <;> (repeat (first | assumption | dsimp only | with_reducible apply act_evts_mem | with_reducible apply evt_mem))
theorem groundYawReset_log_mem (x : In) (s : St) (k : Act) (h : k ∈ s.log) : k ∈ (groundYawReset x s).log := by
  unfold groundYawReset; (try dsimp only); split_ifs <;> (repeat (first | assumption | dsimp only | with_reducible apply act_mem | with_reducible apply evt_log_mem | with_reducible apply resetMagHeading_log_mem))
theorem groundYawReset_evts_mem (x : In) (s : St) (k : Evt) (h : k ∈ s.evts) : k ∈ (groundYawReset x s).evts := by
  unfold groundYawReset; (try dsimp only); split_ifs <;> (repeat (first | assumption | dsimp only | with_reducible apply act_evts_mem | with_reducible apply evt_mem | with_reducible apply resetMagHeading_evts_mem))
theorem airYawReset_log_mem (x : In) (s : St) (k : Act) (h : k ∈ s.log) : k ∈ (airYawReset x s).log := by
  unfold airYawReset; (try dsimp only); split_ifs <;> (repeat (first | assumption | dsimp only | with_reducible apply act_mem | with_reducible apply evt_log_mem | with_reducible apply resetMagHeading_log_mem | with_reducible apply realignYawGps_log_mem))
theorem airYawReset_evts_mem (x : In) (s : St) (k : Evt) (h : k ∈ s.evts) : k ∈ (airYawReset x s).evts := by
  unfold airYawReset; (try dsimp only); split_ifs <;> (repeat (first | assumption | dsimp only | with_reducible apply act_evts_mem | with_reducible apply evt_mem | with_reducible apply resetMagHeading_evts_mem | with_reducible apply realignYawGps_evts_mem))
theorem velPosReset_log_mem (x : In) (s : St) (k : Act) (h : k ∈ s.log) : k ∈ (velPosReset x s).log := by
  unfold velPosReset; (try dsimp only); split_ifs <;> (repeat (first | assumption | dsimp only | with_reducible apply act_mem | with_reducible apply evt_log_mem | with_reducible apply resetVel_log_mem | with_reducible apply resetPos_log_mem))
theorem velPosReset_evts_mem (x : In) (s : St) (k : Evt) (h : k ∈ s.evts) : k ∈ (velPosReset x s).evts := by
  unfold velPosReset; (try dsimp only); split_ifs <;> (repeat (first | assumption | dsimp only | with_reducible apply act_evts_mem | with_reducible apply evt_mem | with_reducible apply resetVel_evts_mem | with_reducible apply resetPos_evts_mem))
theorem check3D_log_mem (x : In) (s : St) (k : Act) (h : k ∈ s.log) : k ∈ (check3D x s).log := by
  unfold check3D; (try dsimp only); split_ifs <;> (repeat (first | assumption | dsimp only | with_reducible apply act_mem | with_reducible apply evt_log_mem))
theorem check3D_evts_mem (x : In) (s : St) (k : Evt) (h : k ∈ s.evts) : k ∈ (check3D x s).evts := by
  unfold check3D; (try dsimp only); split_ifs <;> (repeat (first | assumption | dsimp only | with_reducible apply act_evts_mem | with_reducible apply evt_mem))
theorem selectMagAuto_log_mem (x : In) (s : St) (k : Act) (h : k ∈ s.log) : k ∈ (selectMagAuto x s).log := by
  unfold selectMagAuto; (try dsimp only); split_ifs <;> (repeat (first | assumption | dsimp only | with_reducible apply act_mem | with_reducible apply evt_log_mem | with_reducible apply startMagHdg_log_mem | with_reducible apply startMag3D_log_mem | with_reducible apply check3D_log_mem))
theorem selectMagAuto_evts_mem (x : In) (s : St) (k : Evt) (h : k ∈ s.evts) : k ∈ (selectMagAuto x s).evts := by
  unfold selectMagAuto; (try dsimp only); split_ifs <;> (repeat (first | assumption | dsimp only | with_reducible apply act_evts_mem | with_reducible apply evt_mem | with_reducible apply startMagHdg_evts_mem | with_reducible apply startMag3D_evts_mem | with_reducible apply check3D_evts_mem))
theorem selectMode_log_mem (x : In) (s : St) (k : Act) (h : k ∈ s.log) : k ∈ (selectMode x s).log := by
  unfold selectMode; (try dsimp only); split_ifs <;> (repeat (first | assumption | dsimp only | with_reducible apply act_mem | with_reducible apply evt_log_mem | with_reducible apply startMagHdg_log_mem | with_reducible apply startMag3D_log_mem | with_reducible apply selectMagAuto_log_mem))
theorem selectMode_evts_mem (x : In) (s : St) (k : Evt) (h : k ∈ s.evts) : k ∈ (selectMode x s).evts := by
  unfold selectMode; (try dsimp only); split_ifs <;> (repeat (first | assumption | dsimp only | with_reducible apply act_evts_mem | with_reducible apply evt_mem | with_reducible apply startMagHdg_evts_mem | with_reducible apply startMag3D_evts_mem | with_reducible apply selectMagAuto_evts_mem))
theorem checkDecl_log_mem (x : In) (s : St) (k : Act) (h : k ∈ s.log) : k ∈ (checkDecl x s).log := by
  unfold checkDecl; repeat (first | assumption | dsimp only | with_reducible apply act_mem | with_reducible apply evt_log_mem)
theorem checkDecl_evts_mem (x : In) (s : St) (k : Evt) (h : k ∈ s.evts) : k ∈ (checkDecl x s).evts := by
  unfold checkDecl; repeat (first | assumption | dsimp only | with_reducible apply act_evts_mem | with_reducible apply evt_mem)
theorem checkInhibition_log_mem (x : In) (s : St) (k : Act) (h : k ∈ s.log) : k ∈ (checkInhibition x s).log := by
  unfold checkInhibition; (try dsimp only); split_ifs <;> (repeat (first | assumption | dsimp only | with_reducible apply act_mem | with_reducible apply evt_log_mem))
theorem checkInhibition_evts_mem (x : In) (s : St) (k : Evt) (h : k ∈ s.evts) : k ∈ (checkInhibition x s).evts := by
  unfold checkInhibition; (try dsimp only); split_ifs <;> (repeat (first | assumption | dsimp only | with_reducible apply act_evts_mem | with_reducible apply evt_mem))
theorem runMagFusions_log_mem (s : St) (k : Act) (h : k ∈ s.log) : k ∈ (runMagFusions s).log := by
  unfold runMagFusions; (try dsimp only); split_ifs <;> (repeat (first | assumption | dsimp only | with_reducible apply act_mem | with_reducible apply evt_log_mem))
theorem runMagFusions_evts_mem (s : St) (k : Evt) (h : k ∈ s.evts) : k ∈ (runMagFusions s).evts := by
  unfold runMagFusions; (try dsimp only); split_ifs <;> (repeat (first | assumption | dsimp only | with_reducible apply act_evts_mem | with_reducible apply evt_mem))
theorem magWithData_log_mem (x : In) (s : St) (k : Act) (h : k ∈ s.log) : k ∈ (magWithData x s).log := by
  unfold magWithData; (try dsimp only); split_ifs <;> (repeat (first | assumption | dsimp only | with_reducible apply act_mem | with_reducible apply evt_log_mem | with_reducible apply checkHagl_log_mem | with_reducible apply groundYawReset_log_mem | with_reducible apply airYawReset_log_mem | with_reducible apply velPosReset_log_mem | with_reducible apply selectMode_log_mem | with_reducible apply checkDecl_log_mem | with_reducible apply checkInhibition_log_mem | with_reducible apply runMagFusions_log_mem))
theorem magWithData_evts_mem (x : In) (s : St) (k : Evt) (h : k ∈ s.evts) : k ∈ (magWithData x s).evts := by
  unfold magWithData; (try dsimp only); split_ifs <;> (repeat (first | assumption | dsimp only | with_reducible apply act_evts_mem | with_reducible apply evt_mem | with_reducible apply checkHagl_evts_mem | with_reducible apply groundYawReset_evts_mem | with_reducible apply airYawReset_evts_mem | with_reducible apply velPosReset_evts_mem | with_reducible apply selectMode_evts_mem | with_reducible apply checkDecl_evts_mem | with_reducible apply checkInhibition_evts_mem | with_reducible apply runMagFusions_evts_mem))
theorem magPrepare_log_mem (x : In) (s : St) (k : Act) (h : k ∈ s.log) : k ∈ (magPrepare x s).log := by
  unfold magPrepare; (try dsimp only); split_ifs <;> (repeat (first | assumption | dsimp only | with_reducible apply act_mem | with_reducible apply evt_log_mem))
theorem magPrepare_evts_mem (x : In) (s : St) (k : Evt) (h : k ∈ s.evts) : k ∈ (magPrepare x s).evts := by
  unfold magPrepare; (try dsimp only); split_ifs <;> (repeat (first | assumption | dsimp only | with_reducible apply act_evts_mem | with_reducible apply evt_mem))
theorem magMain_log_mem (x : In) (s : St) (k : Act) (h : k ∈ s.log) : k ∈ (magMain x s).log := by
  unfold magMain; (try dsimp only); split_ifs <;> (repeat (first | assumption | dsimp only | with_reducible apply act_mem | with_reducible apply evt_log_mem | with_reducible apply stopMag_log_mem | with_reducible apply otherStopped_log_mem | with_reducible apply magWithData_log_mem | with_reducible apply magPrepare_log_mem))
theorem magMain_evts_mem (x : In) (s : St) (k : Evt) (h : k ∈ s.evts) : k ∈ (magMain x s).evts := by
  unfold magMain; (try dsimp only); split_ifs <;> (repeat (first | assumption | dsimp only | with_reducible apply act_evts_mem | with_reducible apply evt_mem | with_reducible apply stopMag_evts_mem | with_reducible apply otherStopped_evts_mem | with_reducible apply magWithData_evts_mem | with_reducible apply magPrepare_evts_mem))
theorem controlMag_log_mem (x : In) (s : St) (k : Act) (h : k ∈ s.log) : k ∈ (controlMag x s).log := by
  unfold controlMag; (try dsimp only); split_ifs <;> (repeat (first | assumption | dsimp only | with_reducible apply act_mem | with_reducible apply evt_log_mem | with_reducible apply magMain_log_mem))
theorem controlMag_evts_mem (x : In) (s : St) (k : Evt) (h : k ∈ s.evts) : k ∈ (controlMag x s).evts := by
  unfold controlMag; (try dsimp only); split_ifs <;> (repeat (first | assumption | dsimp only | with_reducible apply act_evts_mem | with_reducible apply evt_mem | with_reducible apply magMain_evts_mem))
theorem startGps_log_mem (s : St) (k : Act) (h : k ∈ s.log) : k ∈ (startGps s).log := by
  unfold startGps; (try dsimp only); split_ifs <;> (repeat (first | assumption | dsimp only | with_reducible apply act_mem | with_reducible apply evt_log_mem))
theorem startGps_evts_mem (s : St) (k : Evt) (h : k ∈ s.evts) : k ∈ (startGps s).evts := by
  unfold startGps; (try dsimp only); split_ifs <;> (repeat (first | assumption | dsimp only | with_reducible apply act_evts_mem | with_reducible apply evt_mem))
theorem stopGps_log_mem (s : St) (k : Act) (h : k ∈ s.log) : k ∈ (stopGps s).log := by
  unfold stopGps; repeat (first | assumption | dsimp only | with_reducible apply act_mem | with_reducible apply evt_log_mem)
theorem stopGps_evts_mem (s : St) (k : Evt) (h : k ∈ s.evts) : k ∈ (stopGps s).evts := by
  unfold stopGps; repeat (first | assumption | dsimp only | with_reducible apply act_evts_mem | with_reducible apply evt_mem)
theorem startGpsYaw_log_mem (s : St) (k : Act) (h : k ∈ s.log) : k ∈ (startGpsYaw s).log := by
  unfold startGpsYaw; repeat (first | assumption | dsimp only | with_reducible apply act_mem | with_reducible apply evt_log_mem | with_reducible apply stopMag3D_log_mem | with_reducible apply stopMagHdg_log_mem)
theorem startGpsYaw_evts_mem (s : St) (k : Evt) (h : k ∈ s.evts) : k ∈ (startGpsYaw s).evts := by
  unfold startGpsYaw; repeat (first | assumption | dsimp only | with_reducible apply act_evts_mem | with_reducible apply evt_mem | with_reducible apply stopMag3D_evts_mem | with_reducible apply stopMagHdg_evts_mem)
theorem gpsYawUse_log_mem (x : In) (s : St) (k : Act) (h : k ∈ s.log) : k ∈ (gpsYawUse x s).log := by
  unfold gpsYawUse; (try dsimp only); split_ifs <;> (repeat (first | assumption | dsimp only | with_reducible apply act_mem | with_reducible apply evt_log_mem | with_reducible apply startGpsYaw_log_mem))
theorem gpsYawUse_evts_mem (x : In) (s : St) (k : Evt) (h : k ∈ s.evts) : k ∈ (gpsYawUse x s).evts := by
  unfold gpsYawUse; (try dsimp only); split_ifs <;> (repeat (first | assumption | dsimp only | with_reducible apply act_evts_mem | with_reducible apply evt_mem | with_reducible apply startGpsYaw_evts_mem))
theorem controlGpsYaw_log_mem (x : In) (s : St) (k : Act) (h : k ∈ s.log) : k ∈ (controlGpsYaw x s).log := by
  unfold controlGpsYaw; (try dsimp only); split_ifs <;> (repeat (first | assumption | dsimp only | with_reducible apply act_mem | with_reducible apply evt_log_mem | with_reducible apply gpsYawUse_log_mem))
theorem controlGpsYaw_evts_mem (x : In) (s : St) (k : Evt) (h : k ∈ s.evts) : k ∈ (controlGpsYaw x s).evts := by
  unfold controlGpsYaw; (try dsimp only); split_ifs <;> (repeat (first | assumption | dsimp only | with_reducible apply act_evts_mem | with_reducible apply evt_mem | with_reducible apply gpsYawUse_evts_mem))
theorem gpsHeading_log_mem (x : In) (s : St) (k : Act) (h : k ∈ s.log) : k ∈ (gpsHeading x s).log := by
  unfold gpsHeading; (try dsimp only); split_ifs <;> (repeat (first | assumption | dsimp only | with_reducible apply act_mem | with_reducible apply evt_log_mem | with_reducible apply resetMagHeading_log_mem))
theorem gpsHeading_evts_mem (x : In) (s : St) (k : Evt) (h : k ∈ s.evts) : k ∈ (gpsHeading x s).evts := by
  unfold gpsHeading; (try dsimp only); split_ifs <;> (repeat (first | assumption | dsimp only | with_reducible apply act_evts_mem | with_reducible apply evt_mem | with_reducible apply resetMagHeading_evts_mem))
theorem gpsStart_log_mem (x : In) (s : St) (k : Act) (h : k ∈ s.log) : k ∈ (gpsStart x s).log := by
  unfold gpsStart; (try dsimp only); split_ifs <;> (repeat (first | assumption | dsimp only | with_reducible apply act_mem | with_reducible apply evt_log_mem | with_reducible apply startGps_log_mem | with_reducible apply gpsHeading_log_mem))
theorem gpsStart_evts_mem (x : In) (s : St) (k : Evt) (h : k ∈ s.evts) : k ∈ (gpsStart x s).evts := by
  unfold gpsStart; (try dsimp only); split_ifs <;> (repeat (first | assumption | dsimp only | with_reducible apply act_evts_mem | with_reducible apply evt_mem | with_reducible apply startGps_evts_mem | with_reducible apply gpsHeading_evts_mem))
theorem gpsFailing_log_mem (x : In) (s : St) (k : Act) (h : k ∈ s.log) : k ∈ (gpsFailing x s).log := by
  unfold gpsFailing; (try dsimp only); split_ifs <;> (repeat (first | assumption | dsimp only | with_reducible apply act_mem | with_reducible apply evt_log_mem | with_reducible apply resetPos_log_mem | with_reducible apply stopGps_log_mem))
theorem gpsFailing_evts_mem (x : In) (s : St) (k : Evt) (h : k ∈ s.evts) : k ∈ (gpsFailing x s).evts := by
  unfold gpsFailing; (try dsimp only); split_ifs <;> (repeat (first | assumption | dsimp only | with_reducible apply act_evts_mem | with_reducible apply evt_mem | with_reducible apply resetPos_evts_mem | with_reducible apply stopGps_evts_mem))
theorem gsfAlign_log_mem (x : In) (s : St) (k : Act) (h : k ∈ s.log) : k ∈ (gsfAlign x s).log := by
  unfold gsfAlign; (try dsimp only); split_ifs <;> (repeat (first | assumption | dsimp only | with_reducible apply act_mem | with_reducible apply evt_log_mem | with_reducible apply resetYawToGsf_log_mem))
theorem gsfAlign_evts_mem (x : In) (s : St) (k : Evt) (h : k ∈ s.evts) : k ∈ (gsfAlign x s).evts := by
  unfold gsfAlign; (try dsimp only); split_ifs <;> (repeat (first | assumption | dsimp only | with_reducible apply act_evts_mem | with_reducible apply evt_mem | with_reducible apply resetYawToGsf_evts_mem))
theorem gsfReset_log_mem (x : In) (s : St) (k : Act) (h : k ∈ s.log) : k ∈ (gsfReset x s).log := by
  unfold gsfReset; (try dsimp only); split_ifs <;> (repeat (first | assumption | dsimp only | with_reducible apply act_mem | with_reducible apply evt_log_mem | with_reducible apply resetYawToGsf_log_mem))
theorem gsfReset_evts_mem (x : In) (s : St) (k : Evt) (h : k ∈ s.evts) : k ∈ (gsfReset x s).evts := by
  unfold gsfReset; (try dsimp only); split_ifs <;> (repeat (first | assumption | dsimp only | with_reducible apply act_evts_mem | with_reducible apply evt_mem | with_reducible apply resetYawToGsf_evts_mem))
theorem gpsTimeoutReset_log_mem (x : In) (s : St) (k : Act) (h : k ∈ s.log) : k ∈ (gpsTimeoutReset x s).log := by
  have h2 := realignYawGps_log_mem x s k h
  simp only [gpsTimeoutReset, resetPos, resetVel, St.act, St.evt]; split_ifs <;> simp [h, h2]
theorem gpsTimeoutReset_evts_mem (x : In) (s : St) (k : Evt) (h : k ∈ s.evts) : k ∈ (gpsTimeoutReset x s).evts := by
  have h2 := realignYawGps_evts_mem x s k h
  simp only [gpsTimeoutReset, resetPos, resetVel, St.act, St.evt]; split_ifs <;> simp [h, h2]
theorem gpsResets_log_mem (x : In) (s : St) (k : Act) (h : k ∈ s.log) : k ∈ (gpsResets x s).log := by
  unfold gpsResets; (try dsimp only); split_ifs <;> (repeat (first | assumption | dsimp only | with_reducible apply act_mem | with_reducible apply evt_log_mem | with_reducible apply gsfReset_log_mem | with_reducible apply gpsTimeoutReset_log_mem))
theorem gpsResets_evts_mem (x : In) (s : St) (k : Evt) (h : k ∈ s.evts) : k ∈ (gpsResets x s).evts := by
  unfold gpsResets; (try dsimp only); split_ifs <;> (repeat (first | assumption | dsimp only | with_reducible apply act_evts_mem | with_reducible apply evt_mem | with_reducible apply gsfReset_evts_mem | with_reducible apply gpsTimeoutReset_evts_mem))
theorem gpsFuse_log_mem (x : In) (s : St) (k : Act) (h : k ∈ s.log) : k ∈ (gpsFuse x s).log := by
  unfold gpsFuse; (try dsimp only); split_ifs <;> (repeat (first | assumption | dsimp only | with_reducible apply act_mem | with_reducible apply evt_log_mem | with_reducible apply fuseVelHor_log_mem | with_reducible apply fusePos_log_mem))
theorem gpsFuse_evts_mem (x : In) (s : St) (k : Evt) (h : k ∈ s.evts) : k ∈ (gpsFuse x s).evts := by
  unfold gpsFuse; (try dsimp only); split_ifs <;> (repeat (first | assumption | dsimp only | with_reducible apply act_evts_mem | with_reducible apply evt_mem | with_reducible apply fuseVelHor_evts_mem | with_reducible apply fusePos_evts_mem))
theorem controlGps_log_mem (x : In) (s : St) (k : Act) (h : k ∈ s.log) : k ∈ (controlGps x s).log := by
  unfold controlGps; (try dsimp only); split_ifs <;> (repeat (first | assumption | dsimp only | with_reducible apply act_mem | with_reducible apply evt_log_mem | with_reducible apply stopGps_log_mem | with_reducible apply controlGpsYaw_log_mem | with_reducible apply gpsStart_log_mem | with_reducible apply gpsFailing_log_mem | with_reducible apply gsfAlign_log_mem | with_reducible apply gpsResets_log_mem | with_reducible apply gpsFuse_log_mem))
theorem controlGps_evts_mem (x : In) (s : St) (k : Evt) (h : k ∈ s.evts) : k ∈ (controlGps x s).evts := by
  unfold controlGps; (try dsimp only); split_ifs <;> (repeat (first | assumption | dsimp only | with_reducible apply act_evts_mem | with_reducible apply evt_mem | with_reducible apply stopGps_evts_mem | with_reducible apply controlGpsYaw_evts_mem | with_reducible apply gpsStart_evts_mem | with_reducible apply gpsFailing_evts_mem | with_reducible apply gsfAlign_evts_mem | with_reducible apply gpsResets_evts_mem | with_reducible apply gpsFuse_evts_mem))
theorem flowMotion_log_mem (x : In) (s : St) (k : Act) (h : k ∈ s.log) : k ∈ (flowMotion x s).log := by
  unfold flowMotion; (try dsimp only); split_ifs <;> (repeat (first | assumption | dsimp only | with_reducible apply act_mem | with_reducible apply evt_log_mem))
theorem flowMotion_evts_mem (x : In) (s : St) (k : Evt) (h : k ∈ s.evts) : k ∈ (flowMotion x s).evts := by
  unfold flowMotion; (try dsimp only); split_ifs <;> (repeat (first | assumption | dsimp only | with_reducible apply act_evts_mem | with_reducible apply evt_mem))
theorem flowQuality_log_mem (x : In) (s : St) (k : Act) (h : k ∈ s.log) : k ∈ (flowQuality x s).log := by
  unfold flowQuality; (try dsimp only); split_ifs <;> (repeat (first | assumption | dsimp only | with_reducible apply act_mem | with_reducible apply evt_log_mem))
theorem flowQuality_evts_mem (x : In) (s : St) (k : Evt) (h : k ∈ s.evts) : k ∈ (flowQuality x s).evts := by
  unfold flowQuality; (try dsimp only); split_ifs <;> (repeat (first | assumption | dsimp only | with_reducible apply act_evts_mem | with_reducible apply evt_mem))
theorem stopFlow_log_mem (s : St) (k : Act) (h : k ∈ s.log) : k ∈ (stopFlow s).log := by
  unfold stopFlow; repeat (first | assumption | dsimp only | with_reducible apply act_mem | with_reducible apply evt_log_mem)
theorem stopFlow_evts_mem (s : St) (k : Evt) (h : k ∈ s.evts) : k ∈ (stopFlow s).evts := by
  unfold stopFlow; repeat (first | assumption | dsimp only | with_reducible apply act_evts_mem | with_reducible apply evt_mem)
theorem flowStart_log_mem (x : In) (s : St) (k : Act) (h : k ∈ s.log) : k ∈ (flowStart x s).log := by
  unfold flowStart; (try dsimp only); split_ifs <;> (repeat (first | assumption | dsimp only | with_reducible apply act_mem | with_reducible apply evt_log_mem | with_reducible apply resetVel_log_mem | with_reducible apply resetPos_log_mem | with_reducible apply resetMagHeading_log_mem))
theorem flowStart_evts_mem (x : In) (s : St) (k : Evt) (h : k ∈ s.evts) : k ∈ (flowStart x s).evts := by
  unfold flowStart; (try dsimp only); split_ifs <;> (repeat (first | assumption | dsimp only | with_reducible apply act_evts_mem | with_reducible apply evt_mem | with_reducible apply resetVel_evts_mem | with_reducible apply resetPos_evts_mem | with_reducible apply resetMagHeading_evts_mem))
theorem flowUse_log_mem (x : In) (s : St) (k : Act) (h : k ∈ s.log) : k ∈ (flowUse x s).log := by
  simp only [flowUse, resetPos, resetVel, fusePos, St.act, St.evt]; split_ifs <;> simp [h]
theorem flowUse_evts_mem (x : In) (s : St) (k : Evt) (h : k ∈ s.evts) : k ∈ (flowUse x s).evts := by
  simp only [flowUse, resetPos, resetVel, fusePos, St.act, St.evt]; split_ifs <;> simp [h]
theorem controlFlow_log_mem (x : In) (s : St) (k : Act) (h : k ∈ s.log) : k ∈ (controlFlow x s).log := by
  unfold controlFlow; (try dsimp only); split_ifs <;> (repeat (first | assumption | dsimp only | with_reducible apply act_mem | with_reducible apply evt_log_mem | with_reducible apply flowMotion_log_mem | with_reducible apply flowQuality_log_mem | with_reducible apply stopFlow_log_mem | with_reducible apply flowStart_log_mem | with_reducible apply flowUse_log_mem))
theorem controlFlow_evts_mem (x : In) (s : St) (k : Evt) (h : k ∈ s.evts) : k ∈ (controlFlow x s).evts := by
  unfold controlFlow; (try dsimp only); split_ifs <;> (repeat (first | assumption | dsimp only | with_reducible apply act_evts_mem | with_reducible apply evt_mem | with_reducible apply flowMotion_evts_mem | with_reducible apply flowQuality_evts_mem | with_reducible apply stopFlow_evts_mem | with_reducible apply flowStart_evts_mem | with_reducible apply flowUse_evts_mem))
theorem evStart_log_mem (x : In) (s : St) (k : Act) (h : k ∈ s.log) : k ∈ (evStart x s).log := by
  unfold evStart; (try dsimp only); split_ifs <;> (repeat (first | assumption | dsimp only | with_reducible apply act_mem | with_reducible apply evt_log_mem | with_reducible apply resetVel_log_mem | with_reducible apply resetPos_log_mem))
theorem evStart_evts_mem (x : In) (s : St) (k : Evt) (h : k ∈ s.evts) : k ∈ (evStart x s).evts := by
  unfold evStart; (try dsimp only); split_ifs <;> (repeat (first | assumption | dsimp only | with_reducible apply act_evts_mem | with_reducible apply evt_mem | with_reducible apply resetVel_evts_mem | with_reducible apply resetPos_evts_mem))
theorem startEvYaw_log_mem (s : St) (k : Act) (h : k ∈ s.log) : k ∈ (startEvYaw s).log := by
  unfold startEvYaw; repeat (first | assumption | dsimp only | with_reducible apply act_mem | with_reducible apply evt_log_mem | with_reducible apply stopMag3D_log_mem | with_reducible apply stopMagHdg_log_mem)
theorem startEvYaw_evts_mem (s : St) (k : Evt) (h : k ∈ s.evts) : k ∈ (startEvYaw s).evts := by
  unfold startEvYaw; repeat (first | assumption | dsimp only | with_reducible apply act_evts_mem | with_reducible apply evt_mem | with_reducible apply stopMag3D_evts_mem | with_reducible apply stopMagHdg_evts_mem)
theorem evYawStart_log_mem (x : In) (s : St) (k : Act) (h : k ∈ s.log) : k ∈ (evYawStart x s).log := by
  unfold evYawStart; (try dsimp only); split_ifs <;> (repeat (first | assumption | dsimp only | with_reducible apply act_mem | with_reducible apply evt_log_mem | with_reducible apply startEvYaw_log_mem))
theorem evYawStart_evts_mem (x : In) (s : St) (k : Evt) (h : k ∈ s.evts) : k ∈ (evYawStart x s).evts := by
  unfold evYawStart; (try dsimp only); split_ifs <;> (repeat (first | assumption | dsimp only | with_reducible apply act_evts_mem | with_reducible apply evt_mem | with_reducible apply startEvYaw_evts_mem))
theorem evPosUse_log_mem (x : In) (s : St) (k : Act) (h : k ∈ s.log) : k ∈ (evPosUse x s).log := by
  unfold evPosUse; (try dsimp only); split_ifs <;> (repeat (first | assumption | dsimp only | with_reducible apply act_mem | with_reducible apply evt_log_mem | with_reducible apply resetVel_log_mem | with_reducible apply resetPos_log_mem | with_reducible apply fusePos_log_mem))
theorem evPosUse_evts_mem (x : In) (s : St) (k : Evt) (h : k ∈ s.evts) : k ∈ (evPosUse x s).evts := by
  unfold evPosUse; (try dsimp only); split_ifs <;> (repeat (first | assumption | dsimp only | with_reducible apply act_evts_mem | with_reducible apply evt_mem | with_reducible apply resetVel_evts_mem | with_reducible apply resetPos_evts_mem | with_reducible apply fusePos_evts_mem))
theorem evVelUse_log_mem (x : In) (s : St) (k : Act) (h : k ∈ s.log) : k ∈ (evVelUse x s).log := by
  unfold evVelUse; (try dsimp only); split_ifs <;> (repeat (first | assumption | dsimp only | with_reducible apply act_mem | with_reducible apply evt_log_mem | with_reducible apply resetVel_log_mem | with_reducible apply fuseVelHor_log_mem))
theorem evVelUse_evts_mem (x : In) (s : St) (k : Evt) (h : k ∈ s.evts) : k ∈ (evVelUse x s).evts := by
  unfold evVelUse; (try dsimp only); split_ifs <;> (repeat (first | assumption | dsimp only | with_reducible apply act_evts_mem | with_reducible apply evt_mem | with_reducible apply resetVel_evts_mem | with_reducible apply fuseVelHor_evts_mem))
theorem stopEv_log_mem (s : St) (k : Act) (h : k ∈ s.log) : k ∈ (stopEv s).log := by
  unfold stopEv; repeat (first | assumption | dsimp only | with_reducible apply act_mem | with_reducible apply evt_log_mem)
theorem stopEv_evts_mem (s : St) (k : Evt) (h : k ∈ s.evts) : k ∈ (stopEv s).evts := by
  unfold stopEv; repeat (first | assumption | dsimp only | with_reducible apply act_evts_mem | with_reducible apply evt_mem)
theorem controlEv_log_mem (x : In) (s : St) (k : Act) (h : k ∈ s.log) : k ∈ (controlEv x s).log := by
  unfold controlEv; (try dsimp only); split_ifs <;> (repeat (first | assumption | dsimp only | with_reducible apply act_mem | with_reducible apply evt_log_mem | with_reducible apply evStart_log_mem | with_reducible apply evYawStart_log_mem | with_reducible apply evPosUse_log_mem | with_reducible apply evVelUse_log_mem | with_reducible apply stopEv_log_mem))
theorem controlEv_evts_mem (x : In) (s : St) (k : Evt) (h : k ∈ s.evts) : k ∈ (controlEv x s).evts := by
  unfold controlEv; (try dsimp only); split_ifs <;> (repeat (first | assumption | dsimp only | with_reducible apply act_evts_mem | with_reducible apply evt_mem | with_reducible apply evStart_evts_mem | with_reducible apply evYawStart_evts_mem | with_reducible apply evPosUse_evts_mem | with_reducible apply evVelUse_evts_mem | with_reducible apply stopEv_evts_mem))
theorem controlAir_log_mem (x : In) (s : St) (k : Act) (h : k ∈ s.log) : k ∈ (controlAir x s).log := by
  unfold controlAir; (try dsimp only); split_ifs <;> (repeat (first | assumption | dsimp only | with_reducible apply act_mem | with_reducible apply evt_log_mem))
theorem controlAir_evts_mem (x : In) (s : St) (k : Evt) (h : k ∈ s.evts) : k ∈ (controlAir x s).evts := by
  unfold controlAir; (try dsimp only); split_ifs <;> (repeat (first | assumption | dsimp only | with_reducible apply act_evts_mem | with_reducible apply evt_mem))
theorem controlBeta_log_mem (x : In) (s : St) (k : Act) (h : k ∈ s.log) : k ∈ (controlBeta x s).log := by
  unfold controlBeta; (try dsimp only); split_ifs <;> (repeat (first | assumption | dsimp only | with_reducible apply act_mem | with_reducible apply evt_log_mem))
theorem controlBeta_evts_mem (x : In) (s : St) (k : Evt) (h : k ∈ s.evts) : k ∈ (controlBeta x s).evts := by
  unfold controlBeta; (try dsimp only); split_ifs <;> (repeat (first | assumption | dsimp only | with_reducible apply act_evts_mem | with_reducible apply evt_mem))
theorem controlDrag_log_mem (x : In) (s : St) (k : Act) (h : k ∈ s.log) : k ∈ (controlDrag x s).log := by
  unfold controlDrag; (try dsimp only); split_ifs <;> (repeat (first | assumption | dsimp only | with_reducible apply act_mem | with_reducible apply evt_log_mem))
theorem controlDrag_evts_mem (x : In) (s : St) (k : Evt) (h : k ∈ s.evts) : k ∈ (controlDrag x s).evts := by
  unfold controlDrag; (try dsimp only); split_ifs <;> (repeat (first | assumption | dsimp only | with_reducible apply act_evts_mem | with_reducible apply evt_mem))
theorem controlAux_log_mem (x : In) (s : St) (k : Act) (h : k ∈ s.log) : k ∈ (controlAux x s).log := by
  unfold controlAux; (try dsimp only); split_ifs <;> (repeat (first | assumption | dsimp only | with_reducible apply act_mem | with_reducible apply evt_log_mem | with_reducible apply fuseVelHor_log_mem))
theorem controlAux_evts_mem (x : In) (s : St) (k : Evt) (h : k ∈ s.evts) : k ∈ (controlAux x s).evts := by
  unfold controlAux; (try dsimp only); split_ifs <;> (repeat (first | assumption | dsimp only | with_reducible apply act_evts_mem | with_reducible apply evt_mem | with_reducible apply fuseVelHor_evts_mem))
theorem controlFake_log_mem (x : In) (s : St) (k : Act) (h : k ∈ s.log) : k ∈ (controlFake x s).log := by
  have h1 : ∀ (t : St), k ∈ t.log → k ∈ (resetVel x (resetPos x t)).log :=
    fun t ht => resetVel_log_mem x _ k (resetPos_log_mem x t k ht)
  unfold controlFake
  dsimp only
  by_cases a : (!(s.aid x).active && !(s.fuseAspd && x.fuseBeta)) = true
  · rw [if_pos a]
    by_cases b : isTimedOut x.now s.tFake 200000 = true
    · rw [if_pos b]
      apply fusePos_log_mem
      by_cases c : isTimedOut x.now s.tFake 400000 = true
      · rw [if_pos c]
        by_cases d : (resetVel x (resetPos x { s with synth := true })).tFake = 0
        · rw [if_pos d]; exact h1 _ h
        · rw [if_neg d]; exact h1 _ h
      · rw [if_neg c]; exact h
    · rw [if_neg b]; exact h
  · rw [if_neg a]; exact h
theorem controlFake_evts_mem (x : In) (s : St) (k : Evt) (h : k ∈ s.evts) : k ∈ (controlFake x s).evts := by
  have h1 : ∀ (t : St), k ∈ t.evts → k ∈ (resetVel x (resetPos x t)).evts :=
    fun t ht => resetVel_evts_mem x _ k (resetPos_evts_mem x t k ht)
  unfold controlFake
  dsimp only
  by_cases a : (!(s.aid x).active && !(s.fuseAspd && x.fuseBeta)) = true
  · rw [if_pos a]
    by_cases b : isTimedOut x.now s.tFake 200000 = true
    · rw [if_pos b]
      apply fusePos_evts_mem
      by_cases c : isTimedOut x.now s.tFake 400000 = true
      · rw [if_pos c]
        by_cases d : (resetVel x (resetPos x { s with synth := true })).tFake = 0
        · rw [if_pos d]; exact h1 _ h
        · rw [if_neg d]; exact evt_mem _ _ _ (h1 _ h)
      · rw [if_neg c]; exact h
    · rw [if_neg b]; exact h
  · rw [if_neg a]; exact h
theorem requests_log_mem (x : In) (s : St) (k : Act) (h : k ∈ s.log) : k ∈ (requests x s).log := by
  unfold requests; (try dsimp only); split_ifs <;> (repeat (first | assumption | dsimp only | with_reducible apply act_mem | with_reducible apply evt_log_mem))
theorem requests_evts_mem (x : In) (s : St) (k : Evt) (h : k ∈ s.evts) : k ∈ (requests x s).evts := by
  unfold requests; (try dsimp only); split_ifs <;> (repeat (first | assumption | dsimp only | with_reducible apply act_evts_mem | with_reducible apply evt_mem))
theorem tiltAlign_log_mem (x : In) (s : St) (k : Act) (h : k ∈ s.log) : k ∈ (tiltAlign x s).log := by
  unfold tiltAlign; (try dsimp only); split_ifs <;> (repeat (first | assumption | dsimp only | with_reducible apply act_mem | with_reducible apply evt_log_mem | with_reducible apply resetMagHeading_log_mem))
theorem tiltAlign_evts_mem (x : In) (s : St) (k : Evt) (h : k ∈ s.evts) : k ∈ (tiltAlign x s).evts := by
  unfold tiltAlign; (try dsimp only); split_ifs <;> (repeat (first | assumption | dsimp only | with_reducible apply act_evts_mem | with_reducible apply evt_mem | with_reducible apply resetMagHeading_evts_mem))
theorem flowArrival_log_mem (x : In) (s : St) (k : Act) (h : k ∈ s.log) : k ∈ (flowArrival x s).log := by
  unfold flowArrival; (try dsimp only); split_ifs <;> (repeat (first | assumption | dsimp only | with_reducible apply act_mem | with_reducible apply evt_log_mem))
theorem flowArrival_evts_mem (x : In) (s : St) (k : Evt) (h : k ∈ s.evts) : k ∈ (flowArrival x s).evts := by
  unfold flowArrival; (try dsimp only); split_ifs <;> (repeat (first | assumption | dsimp only | with_reducible apply act_evts_mem | with_reducible apply evt_mem))

end Ecl.Aid
