import Verif.Aid.Frame

/-!
# Sensors that are switched off by a parameter have no influence on the control decisions — except GPS (C160)
-/

namespace Ecl.Aid

/-! ## Specification -/

/-- inputs that differ in the external vision data only -/
def Spec.OtherVision (x x' : In) : Prop := x' = { x with evReady := x'.evReady, tEv := x'.tEv, evPosOk := x'.evPosOk, evVelOk := x'.evVelOk }

/-- inputs that differ in the specific force samples for drag fusion only -/
def Spec.OtherDrag (x x' : In) : Prop := x' = { x with dragReady := x'.dragReady }

/-- inputs that differ in the magnetometer data only -/
def Spec.OtherMag (x x' : In) : Prop := x' = { x with magReady := x'.magReady, disturbed := x'.disturbed }

/-- inputs that differ in the GPS data only (arrival, quality, times, test results, course, yaw, the yaw estimator fed by it) -/
def Spec.OtherGps (x x' : In) : Prop := x' = { x with
  gpsReady := x'.gpsReady, gpsIntermittent := x'.gpsIntermittent, nedInit := x'.nedInit, lastFail := x'.lastFail, lastPass := x'.lastPass, tGps := x'.tGps
  tPrevGps := x'.tPrevGps, gpsYawFinite := x'.gpsYawFinite, antennaOk := x'.antennaOk, gpsYawOk := x'.gpsYawOk, gsfOk := x'.gsfOk
  velAngleBad := x'.velAngleBad, courseOk := x'.courseOk, courseBad := x'.courseBad, velRatioBad := x'.velRatioBad, gpsVelOk := x'.gpsVelOk
  gpsPosOk := x'.gpsPosOk }

/-! ## Functions that do not read these inputs -/

/-- the inputs with other Vision data -/
def withVision (x : In) (a c d : Bool) (b : UInt64) : In := { x with evReady := a, tEv := b, evPosOk := c, evVelOk := d }

section
variable (x : In) (a c d : Bool) (b : UInt64)
theorem withVision_requests : requests (withVision x a c d b) = requests x := rfl
theorem withVision_tiltAlign : tiltAlign (withVision x a c d b) = tiltAlign x := rfl
theorem withVision_flowArrival : flowArrival (withVision x a c d b) = flowArrival x := rfl
theorem withVision_controlMag : controlMag (withVision x a c d b) = controlMag x := rfl
theorem withVision_controlFlow : controlFlow (withVision x a c d b) = controlFlow x := rfl
theorem withVision_controlGps : controlGps (withVision x a c d b) = controlGps x := rfl
theorem withVision_controlAir : controlAir (withVision x a c d b) = controlAir x := rfl
theorem withVision_controlBeta : controlBeta (withVision x a c d b) = controlBeta x := rfl
theorem withVision_controlDrag : controlDrag (withVision x a c d b) = controlDrag x := rfl
theorem withVision_controlAux : controlAux (withVision x a c d b) = controlAux x := rfl
theorem withVision_controlFake : controlFake (withVision x a c d b) = controlFake x := rfl
end

/-- the inputs with other Drag data -/
def withDrag (x : In) (a : Bool) : In := { x with dragReady := a }

section
variable (x : In) (a : Bool)
theorem withDrag_requests : requests (withDrag x a) = requests x := rfl
theorem withDrag_tiltAlign : tiltAlign (withDrag x a) = tiltAlign x := rfl
theorem withDrag_flowArrival : flowArrival (withDrag x a) = flowArrival x := rfl
theorem withDrag_controlMag : controlMag (withDrag x a) = controlMag x := rfl
theorem withDrag_controlFlow : controlFlow (withDrag x a) = controlFlow x := rfl
theorem withDrag_controlGps : controlGps (withDrag x a) = controlGps x := rfl
theorem withDrag_controlAir : controlAir (withDrag x a) = controlAir x := rfl
theorem withDrag_controlBeta : controlBeta (withDrag x a) = controlBeta x := rfl
theorem withDrag_controlAux : controlAux (withDrag x a) = controlAux x := rfl
theorem withDrag_controlEv : controlEv (withDrag x a) = controlEv x := rfl
theorem withDrag_controlFake : controlFake (withDrag x a) = controlFake x := rfl
end

/-- the inputs with other Mag data -/
def withMag (x : In) (a b : Bool) : In := { x with magReady := a, disturbed := b }

section
variable (x : In) (a b : Bool)
theorem withMag_requests : requests (withMag x a b) = requests x := rfl
theorem withMag_tiltAlign : tiltAlign (withMag x a b) = tiltAlign x := rfl
theorem withMag_flowArrival : flowArrival (withMag x a b) = flowArrival x := rfl
theorem withMag_controlFlow : controlFlow (withMag x a b) = controlFlow x := rfl
theorem withMag_controlGps : controlGps (withMag x a b) = controlGps x := rfl
theorem withMag_controlAir : controlAir (withMag x a b) = controlAir x := rfl
theorem withMag_controlBeta : controlBeta (withMag x a b) = controlBeta x := rfl
theorem withMag_controlDrag : controlDrag (withMag x a b) = controlDrag x := rfl
theorem withMag_controlAux : controlAux (withMag x a b) = controlAux x := rfl
theorem withMag_controlEv : controlEv (withMag x a b) = controlEv x := rfl
theorem withMag_controlFake : controlFake (withMag x a b) = controlFake x := rfl
end

/-! ## Vision -/

theorem controlGpsYaw_noEv (x : In) (s : St) (h : s.evYaw = false) : (controlGpsYaw x s).evYaw = false := by
  have h1 : (gpsYawUse x s).evYaw = false := by
    unfold gpsYawUse
    split_ifs <;> first | exact h | simp [startGpsYaw, stopMag3D_evYaw, stopMagHdg]
  unfold controlGpsYaw
  dsimp only
  split_ifs <;> first | exact h | exact h1

theorem gpsStart_noEv (x : In) (s : St) (h : s.evYaw = false) : (gpsStart x s).evYaw = false := by
  have h1 : (gpsHeading x s).evYaw = false := by
    unfold gpsHeading
    dsimp only
    split_ifs <;> simp [h]
  unfold gpsStart
  dsimp only
  split_ifs <;> simp [h, h1]

theorem controlGps_noEv (x : In) (s : St) (h : s.evYaw = false) : (controlGps x s).evYaw = false := by
  unfold controlGps
  split_ifs <;> simp [h, gpsStart_noEv x _ (controlGpsYaw_noEv x s h)]

/-- vision neither used nor to be used -/
theorem controlEv_off (x : In) (s : St) (hx : x.useEvPos = false ∧ x.useEvVel = false ∧ x.useEvYaw = false)
    (hs : s.evPos = false ∧ s.evVel = false ∧ s.evYaw = false) : controlEv x s = s := by
  obtain ⟨a, b, c⟩ := hx
  obtain ⟨p, q, r⟩ := hs
  have h1 : evStart x s = s := by unfold evStart; simp [a, b]
  have h2 : evYawStart x s = s := by unfold evYawStart; simp [c]
  have h3 : evPosUse x s = s := by unfold evPosUse; simp [p]
  have h4 : evVelUse x s = s := by unfold evVelUse; simp [q]
  unfold controlEv
  rw [h1, h2, h3, h4]
  simp [p, q, r]

/-- the step up to the vision control -/
def beforeEv (x : In) (s : St) : St :=
  controlDrag x (controlBeta x (controlAir x (controlGps x (controlFlow x (controlMag x (flowArrival x (tiltAlign x (requests x { s with log := [], evts := [] }))))))))

theorem step_split (x : In) (s : St) : step x s = controlFake x (controlAux x (controlEv x (beforeEv x s))) := rfl

theorem beforeEv_off (x : In) (s : St) (hs : s.evPos = false ∧ s.evVel = false ∧ s.evYaw = false) :
    (beforeEv x s).evPos = false ∧ (beforeEv x s).evVel = false ∧ (beforeEv x s).evYaw = false := by
  obtain ⟨p, q, r⟩ := hs
  unfold beforeEv
  refine ⟨by simp [p], by simp [q], ?_⟩
  simp only [controlDrag_evYaw, controlBeta_evYaw, controlAir_evYaw]
  exact controlGps_noEv x _ (by simp [r])

theorem step_off (x : In) (s : St) (hx : x.useEvPos = false ∧ x.useEvVel = false ∧ x.useEvYaw = false)
    (hs : s.evPos = false ∧ s.evVel = false ∧ s.evYaw = false) : step x s = controlFake x (controlAux x (beforeEv x s)) := by
  rw [step_split, controlEv_off x _ hx (beforeEv_off x s hs)]

/-- **C160, vision.** If the vision bits of the fusion mode are never set, and vision is not in use at the start, then the vision data do not matter: any
two histories that differ in it only lead to the same modes, requests, fusions, resets, events and time stamps. -/
theorem vision_off_irrelevant (l l' : List In) (s : St) (hl : List.Forall₂ Spec.OtherVision l l')
    (hx : ∀ x ∈ l, x.useEvPos = false ∧ x.useEvVel = false ∧ x.useEvYaw = false) (hs : s.evPos = false ∧ s.evVel = false ∧ s.evYaw = false) :
    run s l' = run s l ∧ trace s l' = trace s l := by
  induction hl generalizing s with
  | nil => exact ⟨rfl, rfl⟩
  | @cons x x' l l' h _ ih =>
    have hx0 := hx x List.mem_cons_self
    have e : step x' s = step x s := by
      have hx1 : x'.useEvPos = false ∧ x'.useEvVel = false ∧ x'.useEvYaw = false := by rw [h]; exact hx0
      rw [step_off x s hx0 hs, step_off x' s hx1 hs]
      obtain ⟨a, b, c, d, rfl⟩ : ∃ a b c d, x' = withVision x a b c d := ⟨_, _, _, _, h⟩
      simp only [beforeEv, withVision_requests, withVision_tiltAlign, withVision_flowArrival, withVision_controlMag, withVision_controlFlow, withVision_controlGps, withVision_controlAir, withVision_controlBeta, withVision_controlDrag, withVision_controlAux, withVision_controlFake]
    have hs' : (step x s).evPos = false ∧ (step x s).evVel = false ∧ (step x s).evYaw = false := by
      rw [step_off x s hx0 hs]
      simpa using beforeEv_off x s hs
    have := ih (step x s) (fun y hy => hx y (List.mem_cons_of_mem _ hy)) hs'
    exact ⟨by rw [run, run, e]; exact this.1, by rw [trace, trace, e, this.2]⟩

/-! ## Drag and magnetometer -/

/-- **C160, drag.** -/
theorem drag_off_irrelevant (l l' : List In) (s : St) (hl : List.Forall₂ Spec.OtherDrag l l') (hx : ∀ x ∈ l, x.useDrag = false) :
    run s l' = run s l ∧ trace s l' = trace s l := by
  induction hl generalizing s with
  | nil => exact ⟨rfl, rfl⟩
  | @cons x x' l l' h _ ih =>
    have hx0 := hx x List.mem_cons_self
    have e : step x' s = step x s := by
      have d0 : ∀ t, controlDrag x t = t := by intro t; unfold controlDrag; simp [hx0]
      obtain ⟨a, rfl⟩ : ∃ a, x' = withDrag x a := ⟨_, h⟩
      have d1 : ∀ t, controlDrag (withDrag x a) t = t := by intro t; unfold controlDrag; simp [withDrag, hx0]
      rw [step_split, step_split]
      simp only [beforeEv, d0, d1, withDrag_requests, withDrag_tiltAlign, withDrag_flowArrival, withDrag_controlMag, withDrag_controlFlow, withDrag_controlGps, withDrag_controlAir, withDrag_controlBeta, withDrag_controlAux, withDrag_controlEv, withDrag_controlFake]
    have := ih (step x s) (fun y hy => hx y (List.mem_cons_of_mem _ hy))
    exact ⟨by rw [run, run, e]; exact this.1, by rw [trace, trace, e, this.2]⟩

/-- **C160, magnetometer** of type NONE. -/
theorem mag_none_irrelevant (l l' : List In) (s : St) (hl : List.Forall₂ Spec.OtherMag l l') (hx : ∀ x ∈ l, x.magType = 5) :
    run s l' = run s l ∧ trace s l' = trace s l := by
  induction hl generalizing s with
  | nil => exact ⟨rfl, rfl⟩
  | @cons x x' l l' h _ ih =>
    have hx0 := hx x List.mem_cons_self
    have e : step x' s = step x s := by
      have d0 : ∀ t, controlMag x t = if noOther t then { t with inhibited := true }.act .fuseHeading else t := by
        intro t; unfold controlMag; simp [hx0]
      obtain ⟨a, b, rfl⟩ : ∃ a b, x' = withMag x a b := ⟨_, _, h⟩
      have d1 : ∀ t, controlMag (withMag x a b) t = if noOther t then { t with inhibited := true }.act .fuseHeading else t := by
        intro t; unfold controlMag; simp [withMag, hx0]
      rw [step_split, step_split]
      simp only [beforeEv, d0, d1, withMag_requests, withMag_tiltAlign, withMag_flowArrival, withMag_controlFlow, withMag_controlGps, withMag_controlAir, withMag_controlBeta, withMag_controlDrag, withMag_controlAux, withMag_controlEv, withMag_controlFake]
    have := ih (step x s) (fun y hy => hx y (List.mem_cons_of_mem _ hy))
    exact ⟨by rw [run, run, e]; exact this.1, by rw [trace, trace, e, this.2]⟩

/-! ## GPS -/

/-- the inputs with other GPS data -/
def withGps (x y : In) : In := { x with
  gpsReady := y.gpsReady, gpsIntermittent := y.gpsIntermittent, nedInit := y.nedInit, lastFail := y.lastFail, lastPass := y.lastPass, tGps := y.tGps
  tPrevGps := y.tPrevGps, gpsYawFinite := y.gpsYawFinite, antennaOk := y.antennaOk, gpsYawOk := y.gpsYawOk, gsfOk := y.gsfOk
  velAngleBad := y.velAngleBad, courseOk := y.courseOk, courseBad := y.courseBad, velRatioBad := y.velRatioBad, gpsVelOk := y.gpsVelOk
  gpsPosOk := y.gpsPosOk }

section
variable (x y : In)
theorem withGps_requests : requests (withGps x y) = requests x := rfl
theorem withGps_tiltAlign : tiltAlign (withGps x y) = tiltAlign x := rfl
theorem withGps_flowArrival : flowArrival (withGps x y) = flowArrival x := rfl
theorem withGps_controlAir : controlAir (withGps x y) = controlAir x := rfl
theorem withGps_controlBeta : controlBeta (withGps x y) = controlBeta x := rfl
theorem withGps_controlDrag : controlDrag (withGps x y) = controlDrag x := rfl
theorem withGps_controlAux : controlAux (withGps x y) = controlAux x := rfl
theorem withGps_flowQuality : flowQuality (withGps x y) = flowQuality x := rfl
theorem withGps_flowMotion : flowMotion (withGps x y) = flowMotion x := rfl
theorem withGps_flowInhibit : flowInhibit (withGps x y) = flowInhibit x := rfl
theorem withGps_resetPos : resetPos (withGps x y) = resetPos x := rfl
theorem withGps_resetMagHeading : resetMagHeading (withGps x y) = resetMagHeading x := rfl
theorem withGps_canReset : canResetMagHeading (withGps x y) = canResetMagHeading x := rfl
theorem withGps_checkHagl : checkHagl (withGps x y) = checkHagl x := rfl
theorem withGps_groundYawReset : groundYawReset (withGps x y) = groundYawReset x := rfl
theorem withGps_selectMode : selectMode (withGps x y) = selectMode x := rfl
theorem withGps_checkDecl : checkDecl (withGps x y) = checkDecl x := rfl
theorem withGps_checkInhibition : checkInhibition (withGps x y) = checkInhibition x := rfl
theorem withGps_magPrepare : magPrepare (withGps x y) = magPrepare x := rfl
theorem withGps_evYawStart : evYawStart (withGps x y) = evYawStart x := rfl
theorem withGps_fusePos : fusePos (withGps x y) = fusePos x := rfl
theorem withGps_fuseVelHor : fuseVelHor (withGps x y) = fuseVelHor x := rfl

variable {x} (s : St)

theorem withGps_resetVel (h : s.gps = false) : resetVel (withGps x y) s = resetVel x s := by
  unfold resetVel velSrc
  simp [h]

theorem withGps_velPosReset (h : s.gps = false) : velPosReset (withGps x y) s = velPosReset x s := by
  unfold velPosReset
  rw [withGps_resetVel y s h, withGps_resetPos]

theorem withGps_airYawReset (hw : x.fixedWing = false) : airYawReset (withGps x y) s = airYawReset x s := by
  unfold airYawReset
  rw [withGps_canReset, withGps_resetMagHeading, show (withGps x y).fixedWing = x.fixedWing from rfl, hw]
  rfl

theorem withGps_magWithData (hw : x.fixedWing = false) (h : s.gps = false) : magWithData (withGps x y) s = magWithData x s := by
  unfold magWithData
  rw [withGps_checkHagl, withGps_groundYawReset, withGps_selectMode, withGps_checkDecl, withGps_checkInhibition, withGps_airYawReset y _ hw,
    withGps_velPosReset y _ (by simp [h])]
  rfl

theorem withGps_controlMag (hw : x.fixedWing = false) (h : s.gps = false) : controlMag (withGps x y) s = controlMag x s := by
  unfold controlMag magMain
  rw [withGps_magPrepare]
  dsimp only
  rw [withGps_magWithData y _ hw (by simp [h])]
  rfl

theorem withGps_flowStart (h : s.gps = false) : flowStart (withGps x y) s = flowStart x s := by
  unfold flowStart
  rw [withGps_resetMagHeading, withGps_resetPos]
  dsimp only
  rw [withGps_resetVel y _ (by dsimp only; split_ifs <;> simp [h])]
  rfl

theorem withGps_flowUse (h : s.gps = false) : flowUse (withGps x y) s = flowUse x s := by
  unfold flowUse
  rw [withGps_resetPos]
  dsimp only
  rw [withGps_resetVel y _ (by split_ifs <;> simp [h])]
  rfl

theorem withGps_controlFlow (h : s.gps = false) : controlFlow (withGps x y) s = controlFlow x s := by
  unfold controlFlow
  rw [withGps_flowQuality, withGps_flowMotion, withGps_flowInhibit]
  dsimp only
  rw [withGps_flowStart y _ (by simp [h]), withGps_flowUse y _ (by simp [h])]
  rfl

theorem withGps_evStart (h : s.gps = false) : evStart (withGps x y) s = evStart x s := by
  unfold evStart
  rw [withGps_resetPos]
  dsimp only
  rw [withGps_resetVel y _ (by dsimp only; split_ifs <;> simp [h])]
  rfl

theorem withGps_evPosUse (h : s.gps = false) : evPosUse (withGps x y) s = evPosUse x s := by
  unfold evPosUse
  rw [withGps_resetPos, withGps_fusePos]
  dsimp only
  rw [withGps_resetVel y _ (by simp [h])]
  rfl

theorem withGps_evVelUse (h : s.gps = false) : evVelUse (withGps x y) s = evVelUse x s := by
  unfold evVelUse
  rw [withGps_fuseVelHor, withGps_resetVel y _ h]
  rfl

theorem withGps_controlEv (h : s.gps = false) : controlEv (withGps x y) s = controlEv x s := by
  unfold controlEv
  rw [withGps_evStart y _ h, withGps_evYawStart, withGps_evPosUse y _ (by simp [h]), withGps_evVelUse y _ (by simp [h])]
  rfl

theorem withGps_controlFake (h : s.gps = false) : controlFake (withGps x y) s = controlFake x s := by
  unfold controlFake
  rw [withGps_resetPos, withGps_fusePos]
  dsimp only
  rw [withGps_resetVel y _ (by simp [h])]
  rfl

end

/-- GPS switched off: neither position nor yaw aiding -/
theorem controlGps_off (x : In) (s : St) (hu : x.useGps = false) (hy : x.useGpsYaw = false) (h1 : s.gps = false) (h2 : s.gpsYaw = false)
    (h3 : s.doGsf = false) : controlGps x s = s := by
  have a1 : controlGpsYaw x s = s := by unfold controlGpsYaw; simp only [hy]; cases s; simp_all
  have a2 : gpsStart x s = s := by unfold gpsStart; simp only [hu]; cases s; simp_all
  have a3 : gpsFailing x s = s := by unfold gpsFailing; simp [h1]
  have a4 : gsfAlign x s = s := by unfold gsfAlign; simp [h3]
  have a5 : gpsResets x s = s := by unfold gpsResets; simp [h1]
  have a6 : gpsFuse x s = s := by unfold gpsFuse; simp [h1]
  unfold controlGps
  rw [a1, a2, a3, a4, a5, a6]
  simp [h1]

/-- **C160, GPS** on a vehicle that is not a fixed wing.  With the GPS bits of the fusion mode clear, GPS data do not matter as long as no emergency yaw
reset is asked for (by a command, or by a new origin with magnetometer type NONE).  That a fix sets the origin and asks for a heading reset with the new
declination is common to both histories. -/
theorem gps_off_irrelevant (l l' : List In) (s : St) (hl : List.Forall₂ Spec.OtherGps l l')
    (hx : ∀ x ∈ l, x.useGps = false ∧ x.useGpsYaw = false ∧ x.fixedWing = false ∧ x.emergencyReq = false ∧ ¬(x.originSet = true ∧ x.magType = 5))
    (hs : s.gps = false ∧ s.gpsYaw = false ∧ s.doGsf = false) :
    run s l' = run s l ∧ trace s l' = trace s l := by
  induction hl generalizing s with
  | nil => exact ⟨rfl, rfl⟩
  | @cons x x' l l' h _ ih =>
    obtain ⟨u, v, w, em, og⟩ := hx x List.mem_cons_self
    obtain ⟨s1, s2, s3⟩ := hs
    have r3 : ∀ t : St, t.doGsf = false → (requests x t).doGsf = false := by
      intro t ht
      unfold requests
      dsimp only
      rw [em]
      by_cases c : x.originSet = true
      · have : ¬ x.magType = 5 := fun e => og ⟨c, e⟩
        rw [if_pos c, if_neg this]
        split_ifs <;> simp_all
      · rw [if_neg c]; split_ifs <;> simp_all
    have hb : ∀ t : St, t.gps = false → t.gpsYaw = false → t.doGsf = false → controlGps x t = t := fun t => controlGps_off x t u v
    have e : step x' s = step x s := by
      obtain ⟨y, rfl⟩ : ∃ y, x' = withGps x y := ⟨x', h⟩
      have hb' : ∀ t : St, t.gps = false → t.gpsYaw = false → t.doGsf = false → controlGps (withGps x y) t = t := fun t => controlGps_off _ t u v
      rw [step_split, step_split]
      unfold beforeEv
      simp only [withGps_requests, withGps_tiltAlign, withGps_flowArrival, withGps_controlAir, withGps_controlBeta, withGps_controlDrag, withGps_controlAux]
      rw [withGps_controlMag y _ w (by simp [s1]), withGps_controlFlow y _ (by simp [s1])]
      rw [hb _ (by simp [s1]) (by simp [s2]) (by simp [r3, s3]), hb' _ (by simp [s1]) (by simp [s2]) (by simp [r3, s3])]
      rw [withGps_controlEv y _ (by simp [s1]), withGps_controlFake y _ (by simp [s1])]
    have hs' : (step x s).gps = false ∧ (step x s).gpsYaw = false ∧ (step x s).doGsf = false := by
      rw [step_split]
      unfold beforeEv
      rw [hb _ (by simp [s1]) (by simp [s2]) (by simp [r3, s3])]
      simp [s1, s2, r3, s3]
    have := ih (step x s) (fun y hy => hx y (List.mem_cons_of_mem _ hy)) hs'
    exact ⟨by rw [run, run, e]; exact this.1, by rw [trace, trace, e, this.2]⟩

/-- **C160, refuted for an emergency.**  GPS aiding is switched off in the fusion mode; after a request for an emergency reset the next GPS sample sets
the heading from the GPS-driven yaw estimator all the same, and resets velocity and position without any aiding source.  (With the GPS bit clear,
`setGpsData`, EKF/estimator_interface.cpp:186-190, stores samples only if GPS is the selected height source: that is the configuration meant here.) -/
theorem disabled_gps_sets_heading :
    let h (gps : Bool) : List In := [{ tiltConverged := true, magReady := true, now := 40000000, tDel := 39900000 },
      { emergencyReq := true, magReady := true, gpsReady := gps, gsfOk := true, now := 40100000, tDel := 40000000, inAir := true }]
    Act.yawReset .gsf ∈ (run {} (h true)).log ∧ Act.yawReset .gsf ∉ (run {} (h false)).log ∧ (run {} (h true)).magFault = true ∧
      (run {} (h false)).magFault = false := by decide +kernel

/-- **C160, refuted for a fixed wing.**  With GPS aiding switched off, a GPS speed above 5 m/s keeps the heading from being reset to the compass when the
aircraft climbs away from the ground: the reset is counted as done.  (GPS samples arrive because GPS is the selected height source, see above.) -/
theorem disabled_gps_blocks_compass :
    let h (fast : Bool) : List In := [{ tiltConverged := true, magReady := true, fixedWing := true, now := 40000000, tDel := 39900000 },
      { magReady := true, fixedWing := true, courseOk := fast, now := 40100000, tDel := 40000000, inAir := true, aboveMag := true }]
    Act.yawReset .mag ∉ (run {} (h true)).log ∧ Act.yawReset .mag ∈ (run {} (h false)).log ∧ (run {} (h true)).magAligned = true ∧
      (run {} (h true)).magYawReq = false := by decide +kernel

/-- **C160, refuted for the magnetometer type UNUSED** (3).  A fixed wing that got its heading from a pair of GPS antennas and has lost it fuses the three
axes of a magnetometer that is declared unused. -/
theorem unused_mag_fused :
    let h : List In := [{ magType := 3, tiltConverged := true, magReady := true, fixedWing := true, now := 40000000, tDel := 39900000 },
      { magType := 3, gpsReady := true, useGpsYaw := true, gpsYawFinite := true, antennaOk := true, fixedWing := true, inAir := true
        now := 40100000, tDel := 40000000 },
      { magType := 3, gpsReady := true, useGpsYaw := true, fixedWing := true, inAir := true, now := 46100000, tDel := 46000000 },
      { magType := 3, magReady := true, useGpsYaw := true, fixedWing := true, courseOk := true, inAir := true, aboveMag := true, yawRateBig := true
        now := 46200000, tDel := 46100000 }]
    Act.fuseMag ∈ (run {} h).log ∧ (run {} h).mag3D = true := by decide +kernel

/-! ## The hypotheses can be met -/

/-- vision off, GPS aiding in flight; the vision data differ -/
example : let l (ev : Bool) : List In :=
      [{ tiltConverged := true, magReady := true, now := 40000000, tDel := 39900000 },
       { magReady := true, gpsReady := true, useGps := true, nedInit := true, tGps := 40000000, lastPass := 40000000, evReady := ev, tEv := 40000000
         evPosOk := ev, now := 40100000, tDel := 40000000 }]
    List.Forall₂ Spec.OtherVision (l false) (l true) ∧ (run {} (l true)).gps = true ∧ run {} (l true) = run {} (l false) := by
  intro l
  have h : List.Forall₂ Spec.OtherVision (l false) (l true) := .cons (by unfold Spec.OtherVision; rfl) (.cons (by unfold Spec.OtherVision; rfl) .nil)
  exact ⟨h, by decide +kernel, (vision_off_irrelevant _ _ _ h (by decide) ⟨rfl, rfl, rfl⟩).1⟩

/-- GPS off, vision aiding; the GPS data differ -/
example : let l (g : Bool) : List In :=
      [{ tiltConverged := true, magReady := true, now := 40000000, tDel := 39900000 },
       { magReady := true, gpsReady := g, nedInit := true, tGps := 40000000, lastPass := 40000000, evReady := true, tEv := 40000000, useEvPos := true
         evPosOk := true, now := 40100000, tDel := 40000000 }]
    List.Forall₂ Spec.OtherGps (l false) (l true) ∧ (run {} (l true)).evPos = true ∧ run {} (l true) = run {} (l false) := by
  intro l
  have h : List.Forall₂ Spec.OtherGps (l false) (l true) := .cons (by unfold Spec.OtherGps; rfl) (.cons (by unfold Spec.OtherGps; rfl) .nil)
  exact ⟨h, by decide +kernel, (gps_off_irrelevant _ _ _ h (by decide) ⟨rfl, rfl, rfl⟩).1⟩

example : run {} [{ magType := 5, tiltConverged := true, magReady := true }] = run {} [{ magType := 5, tiltConverged := true, disturbed := true }] :=
  (mag_none_irrelevant _ _ _ (.cons (by unfold Spec.OtherMag; rfl) .nil) (by decide)).1

example : run {} [{ tiltConverged := true, dragReady := true, inAir := true }] = run {} [{ tiltConverged := true, inAir := true }] :=
  (drag_off_irrelevant _ _ _ (.cons (by unfold Spec.OtherDrag; rfl) .nil) (by decide)).1

end Ecl.Aid
