import Verif.Aid.GsfReset

/-!
# Yaw alignment: types INDOOR and UNUSED never align from the magnetometer (C105); two yaw sources (C106)
-/

namespace Ecl.Aid

/-- nothing is aligned and nothing is in use -/
structure Unaligned (t0 : UInt64) (s : St) : Prop where
  yaw : s.yawAlign = false
  gps : s.gps = false
  flow : s.optFlow = false
  evPos : s.evPos = false
  evVel : s.evVel = false
  evYaw : s.evYaw = false
  gpsYaw : s.gpsYaw = false
  inh : s.inhibited = false
  gsf : s.doGsf = false
  t : s.tAlign = t0

/-- type INDOOR or UNUSED, no vision yaw, no GPS yaw and no emergency reset request -/
structure Indoor (t0 : UInt64) (x : In) : Prop where
  type : x.magType = 3 ∨ x.magType = 4
  ev : x.useEvYaw = false
  gy : x.useGpsYaw = false
  req : x.emergencyReq = false
  t : x.tDel ≠ t0

theorem indoor_heading {t0 : UInt64} {x : In} (hx : Indoor t0 x) {s : St} (h : s.evYaw = false ∧ s.inhibited = false ∧ s.tAlign = t0) :
    resetMagHeading x s = (s, false) := by
  unfold resetMagHeading
  rw [if_neg (by rw [h.2.2]; exact hx.t), if_neg (by have := hx.type; omega), if_neg (by simp [h.1]),
    if_neg (by have := hx.type; omega), if_neg (by simp [h.2.1])]

theorem Unaligned.heading {t0 : UInt64} {x : In} (hx : Indoor t0 x) {s : St} (h : Unaligned t0 s) :
    resetMagHeading x s = (s, false) := indoor_heading hx ⟨h.evYaw, h.inh, h.t⟩

theorem unaligned_step (t0 : UInt64) (x : In) (hx : Indoor t0 x) (s : St) (h : Unaligned t0 s) : Unaligned t0 (step x s) := by
  -- before the magnetometer control
  have h1 : Unaligned t0 (stMag x s) := by
    have hr : Unaligned t0 (requests x { s with log := [], evts := [] }) := by
      refine ⟨by simpa using h.yaw, by simpa using h.gps, by simpa using h.flow, by simpa using h.evPos, by simpa using h.evVel,
        by simpa using h.evYaw, by simpa using h.gpsYaw, by simpa using h.inh, ?_, by simpa using h.t⟩
      have h5 : x.magType ≠ 5 := by have := hx.type; omega
      have hd := h.gsf
      unfold requests
      simp only [hx.req, h5]
      split_ifs <;> simp_all
    have ht : Unaligned t0 (tiltAlign x (requests x { s with log := [], evts := [] })) := by
      generalize requests x { s with log := [], evts := [] } = r at hr
      unfold tiltAlign
      split_ifs
      · have hh : resetMagHeading x { r with tilt := true } = ({ r with tilt := true }, false) :=
          indoor_heading hx ⟨hr.evYaw, hr.inh, hr.t⟩
        simp only [hh]
        exact ⟨rfl, hr.gps, hr.flow, hr.evPos, hr.evVel, hr.evYaw, hr.gpsYaw, hr.inh, hr.gsf, hr.t⟩
      · exact hr
    unfold stMag
    refine ⟨by simpa using ht.yaw, by simpa using ht.gps, by simpa using ht.flow, by simpa using ht.evPos,
      by simpa using ht.evVel, by simpa using ht.evYaw, by simpa using ht.gpsYaw, by simpa using ht.inh, by simpa using ht.gsf,
      by simpa using ht.t⟩
  -- magnetometer control
  have h2 : Unaligned t0 (controlMag x (stMag x s)) := by
    have hc : controlMag x (stMag x s) = stopMag (magPrepare x (stMag x s)) := by
      unfold controlMag
      rw [if_neg (by have := hx.type; omega), if_neg (by have := hx.type; omega)]
      unfold magMain
      dsimp only
      rw [if_pos (by simp [h1.yaw])]
    rw [hc]
    refine ⟨by simpa using h1.yaw, by simpa using h1.gps, by simpa using h1.flow, by simpa using h1.evPos,
      by simpa using h1.evVel, by simpa using h1.evYaw, by simpa using h1.gpsYaw, by simpa using h1.inh, by simpa using h1.gsf,
      by simpa using h1.t⟩
  generalize hm : controlMag x (stMag x s) = m at h2
  -- flow
  have h3 : Unaligned t0 (controlFlow x m) := by
    have hq : Unaligned t0 (flowQuality x (flowMotion x m)) := by
      refine ⟨by simpa using h2.yaw, by simpa using h2.gps, by simpa using h2.flow, by simpa using h2.evPos,
        by simpa using h2.evVel, by simpa using h2.evYaw, by simpa using h2.gpsYaw, by simpa using h2.inh, by simpa using h2.gsf,
        by simpa using h2.t⟩
    unfold controlFlow
    dsimp only
    generalize flowQuality x (flowMotion x m) = q at hq
    split_ifs with a b c
    · exact ⟨hq.yaw, hq.gps, rfl, hq.evPos, hq.evVel, hq.evYaw, hq.gpsYaw, hq.inh, hq.gsf, hq.t⟩
    · have hf : Unaligned t0 { q with flowInh := flowInhibit x q } :=
        ⟨hq.yaw, hq.gps, hq.flow, hq.evPos, hq.evVel, hq.evYaw, hq.gpsYaw, hq.inh, hq.gsf, hq.t⟩
      generalize ({ q with flowInh := flowInhibit x q } : St) = f at hf
      have hs : Unaligned t0 (flowStart x f) := by
        unfold flowStart
        by_cases u : (x.useOf && !f.optFlow && !f.flowInh) = true
        · rw [if_pos u, if_pos (show (!f.yawAlign) = true by simp [hf.yaw]), hf.heading hx]
          dsimp only
          rw [if_neg (by simp)]
          exact ⟨rfl, hf.gps, hf.flow, hf.evPos, hf.evVel, hf.evYaw, hf.gpsYaw, hf.inh, hf.gsf, hf.t⟩
        · rw [if_neg u]; exact hf
      unfold flowUse
      rw [if_neg (by simp [hs.flow])]
      exact hs
    · exact ⟨hq.yaw, hq.gps, rfl, hq.evPos, hq.evVel, hq.evYaw, hq.gpsYaw, hq.inh, hq.gsf, hq.t⟩
    · exact hq
  generalize hfl : controlFlow x m = f at h3
  -- GPS
  have h4 : Unaligned t0 (controlGps x f) := by
    unfold controlGps
    split_ifs with a b c
    · have g1 : Unaligned t0 (controlGpsYaw x f) := by
        unfold controlGpsYaw
        rw [if_pos (by simp [hx.gy])]
        exact ⟨h3.yaw, h3.gps, h3.flow, h3.evPos, h3.evVel, h3.evYaw, rfl, h3.inh, h3.gsf, h3.t⟩
      generalize controlGpsYaw x f = g at g1
      have g2 : Unaligned t0 (gpsHeading x g) := by
        unfold gpsHeading
        split_ifs
        · have hh : resetMagHeading x { g with evYaw := false } = ({ g with evYaw := false }, false) :=
            indoor_heading hx ⟨rfl, g1.inh, g1.t⟩
          simp only [hh]
          split_ifs
          · exact ⟨rfl, g1.gps, g1.flow, g1.evPos, g1.evVel, rfl, g1.gpsYaw, g1.inh, g1.gsf, g1.t⟩
          · exact ⟨rfl, g1.gps, g1.flow, g1.evPos, g1.evVel, rfl, g1.gpsYaw, g1.inh, g1.gsf, g1.t⟩
        · exact g1
      have g3 : Unaligned t0 (gpsStart x g) := by
        unfold gpsStart
        split_ifs
        · dsimp only
          rw [if_neg (by simp [g2.yaw])]
          exact g2
        · exact g1
        · exact ⟨g1.yaw, rfl, g1.flow, g1.evPos, g1.evVel, g1.evYaw, g1.gpsYaw, g1.inh, g1.gsf, g1.t⟩
        · exact g1
      have g4 : gpsFailing x (gpsStart x g) = gpsStart x g := by unfold gpsFailing; rw [if_neg (by simp [g3.gps])]
      have g5 : gsfAlign x (gpsStart x g) = gpsStart x g := by unfold gsfAlign; rw [if_neg (by rw [g3.gsf]; simp)]
      have g6 : gpsResets x (gpsStart x g) = gpsStart x g := by unfold gpsResets; rw [if_neg (by simp [g3.gps])]
      have g7 : gpsFuse x (gpsStart x g) = gpsStart x g := by unfold gpsFuse; rw [if_neg (by simp [g3.gps])]
      rw [g4, g5, g6, g7]
      exact g3
    · rw [h3.gps] at b; simp at b
    · rw [h3.gps] at c; simp at c
    · exact h3
  have h5 : Unaligned t0 (controlDrag x (controlBeta x (controlAir x (controlGps x f)))) := by
    refine ⟨by simpa using h4.yaw, by simpa using h4.gps, by simpa using h4.flow, by simpa using h4.evPos,
      by simpa using h4.evVel, by simpa using h4.evYaw, by simpa using h4.gpsYaw, by simpa using h4.inh, by simpa using h4.gsf,
      by simpa using h4.t⟩
  have hstep : ∀ d, Unaligned t0 d → Unaligned t0 (controlFake x (controlAux x (controlEv x d))) := by
    intro d hd
    have hev : controlEv x d = d := by
      unfold controlEv
      have e1 : evStart x d = d := by unfold evStart; rw [if_neg (by simp [hd.yaw])]
      have e2 : evYawStart x d = d := by unfold evYawStart; rw [if_neg (by simp [hx.ev])]
      have e3 : evPosUse x d = d := by unfold evPosUse; rw [if_neg (by simp [hd.evPos])]
      have e4 : evVelUse x d = d := by unfold evVelUse; rw [if_neg (by simp [hd.evVel])]
      simp only [e1, e2, e3, e4, hd.evPos, hd.evVel, hd.evYaw]
      simp
    rw [hev]
    refine ⟨by simpa using hd.yaw, by simpa using hd.gps, by simpa using hd.flow, by simpa using hd.evPos,
      by simpa using hd.evVel, by simpa using hd.evYaw, by simpa using hd.gpsYaw, by simpa using hd.inh, by simpa using hd.gsf,
      by simpa using hd.t⟩
  have := hstep _ h5
  rw [step_eq]
  unfold stRest
  rw [hm, hfl]
  exact this

/-- **C105 (finding).** With the magnetometer type INDOOR (or the unused value 3) and no other yaw source configured, the yaw
is never aligned, and therefore GPS, optical flow and vision aiding never start, in any history from power-up: good
magnetometer data, passing GPS checks and a set origin do not help.  (`tDel ≠ 0`: time stamps are positive.) -/
theorem indoor_never_aligns (xs : List In)
    (hx : ∀ x ∈ xs, (x.magType = 3 ∨ x.magType = 4) ∧ x.useEvYaw = false ∧ x.useGpsYaw = false ∧ x.emergencyReq = false ∧ x.tDel ≠ 0) :
    ∀ t ∈ trace {} xs, t.yawAlign = false ∧ t.gps = false ∧ t.optFlow = false ∧ t.evPos = false ∧ t.evVel = false ∧
      t.magHdg = false ∧ t.mag3D = false := by
  have gen : ∀ (l : List In) (s : St), (∀ x ∈ l, Indoor 0 x) → Unaligned 0 s → (s.magHdg = false ∧ s.mag3D = false) →
      ∀ t ∈ trace s l, Unaligned 0 t ∧ t.magHdg = false ∧ t.mag3D = false := by
    intro l
    induction l with
    | nil => intro s _ _ _ t ht; cases ht
    | cons x l ih =>
      intro s hl hs hm t ht
      have h1 := unaligned_step 0 x (hl x (by simp)) s hs
      have h2 : (step x s).magHdg = false ∧ (step x s).mag3D = false := by
        have hyaw : (stMag x s).yawAlign = false := by
          -- the yaw is not aligned before the magnetometer control either
          have hx' := hl x (by simp)
          unfold stMag
          simp only [flowArrival_yawAlign]
          unfold tiltAlign
          split_ifs
          · have hh : resetMagHeading x { requests x { s with log := [], evts := [] } with tilt := true } =
                ({ requests x { s with log := [], evts := [] } with tilt := true }, false) :=
              indoor_heading hx' ⟨by simpa using hs.evYaw, by simpa using hs.inh, by simpa using hs.t⟩
            simp only [hh]
          · simpa using hs.yaw
        have hc : controlMag x (stMag x s) = stopMag (magPrepare x (stMag x s)) := by
          have := (hl x (by simp)).type
          unfold controlMag
          rw [if_neg (by omega), if_neg (by omega)]
          unfold magMain
          dsimp only
          rw [if_pos (by simp [hyaw])]
        rw [step_eq, hc]
        exact (stRest_magDown x _).off ⟨(stopMag_off _).2, (stopMag_off _).1⟩
      rcases List.mem_cons.mp ht with rfl | ht
      · exact ⟨h1, h2⟩
      · exact ih (step x s) (fun y hy => hl y (by simp [hy])) h1 h2 t ht
  intro t ht
  have := gen xs {} (fun x hm => ⟨(hx x hm).1, (hx x hm).2.1, (hx x hm).2.2.1, (hx x hm).2.2.2.1, (hx x hm).2.2.2.2⟩)
    ⟨rfl, rfl, rfl, rfl, rfl, rfl, rfl, rfl, rfl, rfl⟩ ⟨rfl, rfl⟩ t ht
  exact ⟨this.1.yaw, this.1.gps, this.1.flow, this.1.evPos, this.1.evVel, this.2.1, this.2.2⟩

/-- **C105.** The other types AUTO, HEADING and 3D align the yaw from the magnetometer as soon as the tilt has converged, and GPS
aiding can start. -/
theorem other_types_align (x : In) (ht : x.magType ≤ 2) (hc : x.tiltConverged = true) :
    (tiltAlign x {}).yawAlign = true ∧ (tiltAlign x {}).tilt = true ∧
    (x.tDel ≠ 0 → (tiltAlign x {}).log = [.yawReset .mag, .magStates, .saveMagCov]) := by
  have e : tiltAlign x {} = { (resetMagHeading x { tilt := true }).1 with yawAlign := (resetMagHeading x { tilt := true }).2 } := by
    unfold tiltAlign; rw [if_pos (by simp [hc])]
  rw [e]
  unfold resetMagHeading
  by_cases h0 : x.tDel = 0
  · rw [if_pos h0]; exact ⟨rfl, rfl, fun k => absurd h0 k⟩
  · rw [if_neg h0, if_neg (by omega), if_neg (by simp), if_pos ht]
    exact ⟨rfl, rfl, fun _ => rfl⟩

/-- Non-vacuity of `indoor_never_aligns`: good data of every kind for INDOOR; the same data with AUTO starts GPS aiding. -/
example : let x : ℤ → UInt64 → In := fun ty t =>
      { magType := ty, tiltConverged := true, magReady := true, useGps := true, gpsReady := true, nedInit := true,
        lastFail := 0, lastPass := t, tGps := t, tPrevGps := t, now := t, tDel := t };
    (run {} [x 4 6000000, x 4 6100000]).gps = false ∧ (run {} [x 0 6000000, x 0 6100000]).gps = true := by decide +kernel

/-! ### Two yaw sources at once -/

/-- **C106 (finding).** Vision yaw can start while GPS yaw is in use (without GPS position aiding): both are then active, the
vision yaw resets the heading that the antenna heading had set, and both are fused. -/
theorem vision_and_gps_yaw : ∃ xs : List In, let r := run {} xs
    r.evYaw = true ∧ r.gpsYaw = true ∧ Act.fuseGpsYaw ∈ r.log ∧ Act.fuseHeading ∈ r.log :=
  ⟨[{ tiltConverged := true, useGpsYaw := true, gpsReady := true, gpsYawFinite := true, antennaOk := true, tDel := 1000, now := 2000 },
    { useGpsYaw := true, useEvYaw := true, evReady := true, tEv := 2500, tDel := 2000, now := 3000 },
    { useGpsYaw := true, useEvYaw := true, evReady := true, tEv := 3500, gpsReady := true, gpsYawFinite := true, gpsYawOk := true,
      tDel := 3000, now := 4000 }], by decide +kernel⟩

/-- **C106.** Starting GPS yaw always stops vision yaw and both magnetometer modes and aligns the yaw. -/
theorem gps_yaw_start (x : In) (s : St) (h0 : s.gpsYaw = false) (h1 : (controlGpsYaw x s).gpsYaw = true) :
    let r := controlGpsYaw x s
    x.useGpsYaw = true ∧ s.gpsYawFaulty = false ∧ x.gpsYawFinite = true ∧ s.tilt = true ∧ x.gpsIntermittent = false ∧
    x.antennaOk = true ∧ r.evYaw = false ∧ r.magHdg = false ∧ r.mag3D = false ∧ r.magDec = false ∧ r.yawAlign = true ∧
    Act.yawReset .gpsAntenna ∈ r.log := by
  intro r
  have hr : r = controlGpsYaw x s := rfl
  have hex := startGpsYaw_excl { s.act (.yawReset .gpsAntenna) with tGpsYaw := x.now, yawAlign := true }
  unfold controlGpsYaw at h1 hr
  by_cases a : (!x.useGpsYaw || s.gpsYawFaulty) = true
  · rw [if_pos a] at h1; cases h1
  rw [if_neg a] at h1 hr
  simp only [Bool.or_eq_true, Bool.not_eq_true', not_or, Bool.not_eq_false, Bool.not_eq_true] at a
  dsimp only at h1 hr
  by_cases b : ((gpsYawUse x s).gpsYaw && isTimedOut x.now (gpsYawUse x s).tGpsYaw 5000000) = true
  · rw [if_pos b] at h1; cases h1
  rw [if_neg b] at h1 hr
  unfold gpsYawUse at h1 hr
  rw [if_neg (by simp [h0] : ¬ s.gpsYaw = true)] at h1 hr
  by_cases c : x.gpsYawFinite = true
  swap
  · rw [if_neg c, h0] at h1; cases h1
  rw [if_pos c] at h1 hr
  by_cases d : (s.tilt && !x.gpsIntermittent) = true
  swap
  · rw [if_neg d, h0] at h1; cases h1
  rw [if_pos d] at h1 hr
  by_cases e : x.antennaOk = true
  swap
  · rw [if_neg e, h0] at h1; cases h1
  rw [if_pos e] at h1 hr
  simp only [Bool.and_eq_true, Bool.not_eq_true'] at d
  have hm := stop_both { s.act (.yawReset .gpsAntenna) with tGpsYaw := x.now, yawAlign := true, magDec := false, evYaw := false }
  refine ⟨a.1, a.2, c, d.1, d.2, e, ?_, ?_, ?_, ?_, ?_, ?_⟩ <;> rw [hr] <;> unfold startGpsYaw
  · simp
  · exact hm.1
  · exact hm.2
  · simp
  · simp
  · by_cases h3 : s.mag3D = true <;> simp [stopMagHdg, stopMag3D, St.act, St.evt, h3]

/-- **C106.** GPS yaw that is not accepted for more than 5 s is declared faulty and is never used again in any history. -/
theorem gps_yaw_faulty_forever (s : St) (h : s.gpsYawFaulty = true) (xs : List In) :
    ∀ t ∈ trace s xs, t.gpsYawFaulty = true ∧ Act.fuseGpsYaw ∉ t.log ∧ (s.gpsYaw = false → t.gpsYaw = false) := by
  have key : ∀ (x : In) (s : St), s.gpsYawFaulty = true → (step x s).gpsYawFaulty = true ∧
      (s.gpsYaw = false → (step x s).gpsYaw = false) := by
    intro x s h
    set e := controlFlow x (controlMag x (stMag x s)) with he
    have hs : step x s = controlFake x (controlAux x (controlEv x (controlDrag x (controlBeta x (controlAir x
      (controlGps x e)))))) := rfl
    have e1 : e.gpsYawFaulty = true := by rw [he]; unfold stMag; simpa using h
    have e2 : e.gpsYaw = s.gpsYaw := by rw [he]; unfold stMag; simp
    have hy : controlGpsYaw x e = { e with gpsYaw := false } := by
      unfold controlGpsYaw; rw [if_pos (by simp [e1])]
    have hfr : (controlGps x e).gpsYawFaulty = true ∧ (s.gpsYaw = false → (controlGps x e).gpsYaw = false) := by
      unfold controlGps
      split_ifs
      · rw [hy]
        refine ⟨by simpa using e1, fun _ => ?_⟩
        simp only [gpsFuse_gpsYaw, gpsResets_gpsYaw, gsfAlign_gpsYaw]
        unfold gpsFailing
        dsimp only
        split_ifs <;> simp [stopGps]
      · exact ⟨e1, fun _ => rfl⟩
      · exact ⟨e1, fun _ => rfl⟩
      · exact ⟨e1, fun k => by rw [e2]; exact k⟩
    rw [hs]
    refine ⟨by simpa using hfr.1, fun k => by simpa using hfr.2 k⟩
  have nolog : ∀ (x : In) (s : St), s.gpsYawFaulty = true → Act.fuseGpsYaw ∉ (step x s).log := by
    intro x s h
    set e := controlFlow x (controlMag x (stMag x s)) with he
    have hs : step x s = controlFake x (controlAux x (controlEv x (controlDrag x (controlBeta x (controlAir x
      (controlGps x e)))))) := rfl
    have e1 : e.gpsYawFaulty = true := by rw [he]; unfold stMag; simpa using h
    have hy : (controlGpsYaw x e).log.countP isGpsYaw = e.log.countP isGpsYaw := by
      unfold controlGpsYaw; rw [if_pos (by simp [e1])]
    have hg : (controlGps x e).log.countP isGpsYaw = e.log.countP isGpsYaw := by
      unfold controlGps
      split_ifs <;> simp [hy]
    have h0 : e.log.countP isGpsYaw = 0 := by rw [he]; unfold stMag; simp
    have : (step x s).log.countP isGpsYaw = 0 := by
      rw [hs]
      simp only [controlFake_isGpsYaw, controlAux_isGpsYaw, controlEv_isGpsYaw, controlDrag_isGpsYaw, controlBeta_isGpsYaw,
        controlAir_isGpsYaw, hg, h0]
    rw [List.countP_eq_zero] at this
    exact fun q => this _ q rfl
  induction xs generalizing s with
  | nil => intro t ht; cases ht
  | cons x xs ih =>
    intro t ht
    rcases List.mem_cons.mp ht with rfl | ht
    · exact ⟨(key x s h).1, nolog x s h, (key x s h).2⟩
    · obtain ⟨a, b, c⟩ := ih (step x s) (key x s h).1 t ht
      exact ⟨a, b, fun k => c ((key x s h).2 k)⟩

/-- **C106.** It becomes faulty exactly when a GPS sample arrives more than 5 s after the last accepted yaw while the yaw is in
use. -/
theorem gps_yaw_timeout (x : In) (s : St) (hu : x.useGpsYaw = true) (hf : s.gpsYawFaulty = false) (hy : s.gpsYaw = true)
    (hk : x.gpsYawOk = false ∨ x.gpsYawFinite = false) :
    (controlGpsYaw x s).gpsYawFaulty = isTimedOut x.now s.tGpsYaw 5000000 ∧
    (controlGpsYaw x s).gpsYaw = !isTimedOut x.now s.tGpsYaw 5000000 := by
  have h1 : (gpsYawUse x s).gpsYaw = true ∧ (gpsYawUse x s).tGpsYaw = s.tGpsYaw ∧ (gpsYawUse x s).gpsYawFaulty = false := by
    unfold gpsYawUse
    rcases hk with k | k
    · split_ifs <;> simp_all
    · rw [if_neg (by simp [k])]; exact ⟨hy, rfl, hf⟩
  unfold controlGpsYaw
  rw [if_neg (by simp [hu, hf])]
  dsimp only
  rw [h1.1, h1.2.1]
  cases isTimedOut x.now s.tGpsYaw 5000000
  · exact ⟨h1.2.2, h1.1⟩
  · exact ⟨rfl, rfl⟩

end Ecl.Aid
