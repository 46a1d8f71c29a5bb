import Verif.Aid.Odom

/-!
# When each aiding source starts and stops (C108-C112)

Statements are about one call of the control function of the source, for every state and input.
-/

namespace Ecl.Aid

/-! ### GPS -/

/-- **C108.** GPS aiding starts only with a new sample, when configured, with tilt aligned, the origin set, no failed check in the
last 5 s and the yaw aligned; the position is then reset to GPS, the velocity too unless flow is in use, and the event is
raised. -/
theorem gps_start_conditions (x : In) (s : St) (h0 : s.gps = false) (h1 : (controlGps x s).gps = true) :
    x.gpsReady = true ∧ x.useGps = true ∧ s.tilt = true ∧ x.nedInit = true ∧ isTimedOut x.now x.lastFail 5000000 = true ∧
    (controlGps x s).yawAlign = true ∧ Act.posReset .gps ∈ (controlGps x s).log ∧
    (s.optFlow = false → Act.velReset .gps ∈ (controlGps x s).log) ∧ Evt.startingGps ∈ (controlGps x s).evts := by
  unfold controlGps at h1 ⊢
  by_cases a : x.gpsReady = true
  swap
  · rw [if_neg a] at h1; split_ifs at h1 <;> simp_all [stopGps, St.evt]
  rw [if_pos a] at h1 ⊢
  have y0 : (controlGpsYaw x s).gps = false := by simpa using h0
  have y1 : (controlGpsYaw x s).tilt = s.tilt := by simp
  have y2 : (controlGpsYaw x s).optFlow = s.optFlow := by simp
  generalize controlGpsYaw x s = g at h1 y0 y1 y2
  have k1 : (gpsFailing x (gpsStart x g)).gps = true := by simpa using h1
  have k2 : gpsFailing x (gpsStart x g) = gpsStart x g := by
    unfold gpsFailing at k1 ⊢
    by_cases b : ((gpsStart x g).gps && isTimedOut x.now x.lastPass 5000000 && (St.aid x (gpsStart x g)).isOther (gpsStart x g).gps) = true
    · rw [if_pos b] at k1
      dsimp only at k1
      split_ifs at k1
      · simp [stopGps] at k1
      · simp [stopGps] at k1
    · rw [if_neg b]
  rw [k2] at k1 h1 ⊢
  -- the start
  have k3 : x.useGps = true ∧ g.tilt = true ∧ x.nedInit = true ∧ isTimedOut x.now x.lastFail 5000000 = true ∧
      (gpsStart x g).yawAlign = true ∧ Act.posReset .gps ∈ (gpsStart x g).log ∧
      (g.optFlow = false → Act.velReset .gps ∈ (gpsStart x g).log) ∧ Evt.startingGps ∈ (gpsStart x g).evts := by
    unfold gpsStart at k1 ⊢
    by_cases b : (x.useGps && !g.gps) = true
    swap
    · rw [if_neg b] at k1; split_ifs at k1 <;> simp_all
    rw [if_pos b] at k1 ⊢
    by_cases c : (g.tilt && x.nedInit && isTimedOut x.now x.lastFail 5000000) = true
    swap
    · rw [if_neg c] at k1; simp_all
    rw [if_pos c] at k1 ⊢
    dsimp only at k1 ⊢
    have z0 : (gpsHeading x g).gps = false := by simpa using y0
    have z2 : (gpsHeading x g).optFlow = g.optFlow := by simp
    generalize gpsHeading x g = q at k1 z0 z2
    by_cases d : q.yawAlign = true
    swap
    · rw [if_neg d, z0] at k1; cases k1
    rw [if_pos d]
    simp only [Bool.and_eq_true] at b c
    refine ⟨b.1, c.1.1, c.1.2, c.2, ?_, ?_, fun hf => ?_, ?_⟩
    · unfold startGps; dsimp only; split_ifs <;> simpa using d
    · unfold startGps; dsimp only; split_ifs <;> simp [St.evt, St.act]
    · unfold startGps; dsimp only
      rw [if_pos (by simp [z2, hf])]
      simp [St.evt, St.act]
    · unfold startGps; dsimp only; split_ifs <;> simp [St.evt, St.act]
  have m1 : ∀ k : Act, k ∈ (gpsStart x g).log → k ∈ (gpsFuse x (gpsResets x (gsfAlign x (gpsStart x g)))).log :=
    fun k hk => gpsFuse_log_mem _ _ _ (gpsResets_log_mem _ _ _ (gsfAlign_log_mem _ _ _ hk))
  have m2 : ∀ k : Evt, k ∈ (gpsStart x g).evts → k ∈ (gpsFuse x (gpsResets x (gsfAlign x (gpsStart x g)))).evts :=
    fun k hk => gpsFuse_evts_mem _ _ _ (gpsResets_evts_mem _ _ _ (gsfAlign_evts_mem _ _ _ hk))
  refine ⟨a, k3.1, by rw [← y1]; exact k3.2.1, k3.2.2.1, k3.2.2.2.1, ?_, m1 _ k3.2.2.2.2.2.1, fun hf => m1 _ (k3.2.2.2.2.2.2.1 (by rw [y2]; exact hf)),
    m2 _ k3.2.2.2.2.2.2.2⟩
  -- yaw stays aligned
  have r0 : (gsfAlign x (gpsStart x g)) = gpsStart x g := by unfold gsfAlign; rw [if_neg (by rw [k1]; simp)]
  rw [r0]
  have q1 : (gpsStart x g).yawAlign = true := k3.2.2.2.2.1
  generalize gpsStart x g = w at q1
  have q2 : (gpsResets x w).yawAlign = true := by
    unfold gpsResets gsfReset resetYawToGsf gpsTimeoutReset
    dsimp only
    split_ifs <;> simp_all
  simpa using q2

/-- **C108.** With an aligned yaw, no vision yaw in use and no inhibition to undo, these conditions are also sufficient. -/
theorem gps_starts (x : In) (s : St) (hr : x.gpsReady = true) (hu : x.useGps = true) (ht : s.tilt = true)
    (hn : x.nedInit = true) (hf : isTimedOut x.now x.lastFail 5000000 = true) (hp : isTimedOut x.now x.lastPass 5000000 = false)
    (hy : s.yawAlign = true) (he : s.evYaw = false) (hi : s.magInhReq = false) : (controlGps x s).gps = true := by
  unfold controlGps
  rw [if_pos hr]
  have y1 : (controlGpsYaw x s).tilt = true := by simpa using ht
  have y2 : (controlGpsYaw x s).yawAlign = true := by
    unfold controlGpsYaw gpsYawUse startGpsYaw
    dsimp only
    split_ifs <;> simp_all
  have y3 : (controlGpsYaw x s).evYaw = false := by
    unfold controlGpsYaw gpsYawUse startGpsYaw
    dsimp only
    split_ifs <;> simp_all
  have y4 : (controlGpsYaw x s).magInhReq = false := by simpa using hi
  generalize controlGpsYaw x s = g at y1 y2 y3 y4
  have k1 : (gpsStart x g).gps = true := by
    unfold gpsStart
    by_cases b : g.gps = true
    · rw [if_neg (by simp [b]), if_neg (by simp [hu])]; exact b
    · rw [if_pos (by simp [hu, b]), if_pos (by simp [y1, hn, hf])]
      have hq : gpsHeading x g = g := by unfold gpsHeading; rw [if_neg (by simp [y2, y3, y4])]
      rw [hq]
      dsimp only
      rw [if_pos y2]
      unfold startGps
      rfl
  have k2 : gpsFailing x (gpsStart x g) = gpsStart x g := by
    unfold gpsFailing; rw [if_neg (by simp [hp])]
  rw [k2]
  simpa using k1

/-- **C108.** The only reasons for which GPS aiding stops: deselected by configuration (silently), checks not passed for 5 s while
another source is active, no data for 10 s, no data for 1 s while another source is active - the last three with an event.
In particular failing checks never stop GPS when it is the only source. -/
theorem gps_stop_reasons (x : In) (s : St) (h0 : s.gps = true) (h1 : (controlGps x s).gps = false) :
    (x.gpsReady = true ∧ x.useGps = false) ∨
    (x.gpsReady = true ∧ isTimedOut x.now x.lastPass 5000000 = true ∧ (s.aid x).isOther true = true ∧
      Evt.gpsQualityPoor ∈ (controlGps x s).evts) ∨
    (x.gpsReady = false ∧ x.tDel - x.tGps > 10000000 ∧ Evt.gpsDataStopped ∈ (controlGps x s).evts) ∨
    (x.gpsReady = false ∧ x.tDel - x.tGps > 1000000 ∧ (s.aid x).isOther true = true ∧
      Evt.gpsDataStoppedAlt ∈ (controlGps x s).evts) := by
  by_cases a : x.gpsReady = true
  · by_cases u : x.useGps = true
    · right; left
      unfold controlGps at h1 ⊢
      rw [if_pos a] at h1 ⊢
      have y0 : (controlGpsYaw x s).gps = true := by simpa using h0
      have y1 : (controlGpsYaw x s).aid x = s.aid x := by simp [St.aid]
      generalize controlGpsYaw x s = g at h1 y0 y1
      have hs : gpsStart x g = g := by
        unfold gpsStart; rw [if_neg (by simp [y0]), if_neg (by simp [u])]
      rw [hs] at h1 ⊢
      have k1 : (gpsFailing x g).gps = false := by simpa using h1
      have hb : (g.gps && isTimedOut x.now x.lastPass 5000000 && (g.aid x).isOther g.gps) = true := by
        unfold gpsFailing at k1
        by_contra b
        rw [if_neg b, y0] at k1; cases k1
      have e1 : Evt.gpsQualityPoor ∈ (gpsFailing x g).evts := by
        unfold gpsFailing; rw [if_pos hb]; simp [St.evt]
      simp only [Bool.and_eq_true] at hb
      refine ⟨a, hb.1.2, by rw [y0, y1] at hb; exact hb.2, ?_⟩
      exact gpsFuse_evts_mem _ _ _ (gpsResets_evts_mem _ _ _ (gsfAlign_evts_mem _ _ _ e1))
    · exact Or.inl ⟨a, by simpa using u⟩
  · unfold controlGps at h1 ⊢
    rw [if_neg a] at h1 ⊢
    have ha : x.gpsReady = false := by simpa using a
    by_cases b : (s.gps && elapsed x.tDel x.tGps 10000000) = true
    · rw [if_pos b]
      simp only [Bool.and_eq_true, elapsed, Bool.not_eq_true', decide_eq_false_iff_not] at b
      exact Or.inr (Or.inr (Or.inl ⟨ha, UInt64.not_le.mp b.2, by simp [St.evt]⟩))
    · rw [if_neg b] at h1 ⊢
      by_cases c : (s.gps && elapsed x.tDel x.tGps 1000000 && (s.aid x).isOther s.gps) = true
      · rw [if_pos c]
        simp only [Bool.and_eq_true, elapsed, Bool.not_eq_true', decide_eq_false_iff_not] at c
        exact Or.inr (Or.inr (Or.inr ⟨ha, UInt64.not_le.mp c.1.2, by rw [h0] at c; exact c.2, by simp [St.evt]⟩))
      · rw [if_neg c, h0] at h1; cases h1

/-- **C108.** Conversely GPS aiding does stop in each of these cases. -/
theorem gps_stops (x : In) (s : St) (h0 : s.gps = true) :
    (x.gpsReady = true → x.useGps = false → (controlGps x s).gps = false) ∧
    (x.gpsReady = true → isTimedOut x.now x.lastPass 5000000 = true → (s.aid x).isOther true = true →
      (controlGps x s).gps = false) ∧
    (x.gpsReady = false → x.tDel - x.tGps > 10000000 → (controlGps x s).gps = false) ∧
    (x.gpsReady = false → x.tDel - x.tGps > 1000000 → (s.aid x).isOther true = true → (controlGps x s).gps = false) := by
  refine ⟨fun a u => ?_, fun a p o => ?_, fun a b => ?_, fun a b o => ?_⟩
  · unfold controlGps
    rw [if_pos a]
    have y0 : (gpsStart x (controlGpsYaw x s)).gps = false := by
      unfold gpsStart; rw [if_neg (by simp [u]), if_pos (by simp [u])]
    have y1 : (gpsFailing x (gpsStart x (controlGpsYaw x s))).gps = false := by
      unfold gpsFailing; rw [if_neg (by simp [y0])]; exact y0
    simpa using y1
  · unfold controlGps
    rw [if_pos a]
    have y0 : (controlGpsYaw x s).gps = true := by simpa using h0
    have y1 : (controlGpsYaw x s).aid x = s.aid x := by simp [St.aid]
    generalize controlGpsYaw x s = g at y0 y1
    have : (gpsFailing x (gpsStart x g)).gps = false := by
      unfold gpsStart
      rw [if_neg (by simp [y0])]
      split_ifs with u
      · unfold gpsFailing; rw [if_neg (by simp)]
      · unfold gpsFailing
        rw [if_pos (by simp only [y0, p, y1, o, Bool.and_self])]
        dsimp only
        split_ifs <;> simp [stopGps]
    simpa using this
  · unfold controlGps
    rw [if_neg (by simp [a]), if_pos (by simp [h0, elapsed]; exact b)]
    rfl
  · unfold controlGps
    rw [if_neg (by simp [a])]
    split_ifs with c d
    · rfl
    · rfl
    · exact absurd (by simp only [h0, o, elapsed, Bool.true_and, Bool.and_true, Bool.not_eq_true', decide_eq_false_iff_not]; exact UInt64.not_le.mpr b) d

/-- **C108 (finding).** With magnetometer type INDOOR and vision yaw, each GPS sample that would start GPS aiding drops the
vision yaw and un-aligns the yaw instead, and GPS aiding does not start. -/
theorem vision_yaw_lost (x : In) (s : St) (ht : x.magType = 4) (hi : s.inhibited = false) (hev : s.evYaw = true)
    (hg : s.gps = false) (hd : s.magDist = false) (htl : s.tilt = true) (hr : x.gpsReady = true) (hu : x.useGps = true)
    (hgy : x.useGpsYaw = false) (hn : x.nedInit = true) (hf : isTimedOut x.now x.lastFail 5000000 = true)
    (hta : x.tDel ≠ s.tAlign) (hds : s.doGsf = false) :
    (controlGps x s).evYaw = false ∧ (controlGps x s).yawAlign = false ∧ (controlGps x s).gps = false := by
  have hy : controlGpsYaw x s = { s with gpsYaw := false } := by
    unfold controlGpsYaw; rw [if_pos (by simp [hgy])]
  have hh : resetMagHeading x { s with gpsYaw := false, evYaw := false } = ({ s with gpsYaw := false, evYaw := false }, false) := by
    unfold resetMagHeading
    rw [if_neg hta, if_neg (by omega), if_neg (by simp), if_neg (by omega), if_neg (by simp [hi])]
  have hq : (gpsHeading x { s with gpsYaw := false }).yawAlign = false ∧ (gpsHeading x { s with gpsYaw := false }).evYaw = false ∧
      (gpsHeading x { s with gpsYaw := false }).gps = false ∧ (gpsHeading x { s with gpsYaw := false }).doGsf = false := by
    unfold gpsHeading
    rw [if_pos (by simp [hev, canResetMagHeading, hd, ht])]
    dsimp only
    rw [hh]
    dsimp only
    split_ifs
    · exact ⟨rfl, rfl, hg, hds⟩
    · exact ⟨rfl, rfl, hg, hds⟩
  have hs : gpsStart x { s with gpsYaw := false } = gpsHeading x { s with gpsYaw := false } := by
    unfold gpsStart
    rw [if_pos (by simp [hu, hg]), if_pos (by simp [htl, hn, hf])]
    dsimp only
    rw [if_neg (by simp [hq.1])]
  unfold controlGps
  rw [if_pos hr, hy, hs]
  generalize gpsHeading x { s with gpsYaw := false } = q at hq
  have a1 : gpsFailing x q = q := by unfold gpsFailing; rw [if_neg (by simp [hq.2.2.1])]
  have a2 : gsfAlign x q = q := by unfold gsfAlign; rw [if_neg (by simp [hq.2.2.2])]
  have a3 : gpsResets x q = q := by unfold gpsResets; rw [if_neg (by simp [hq.2.2.1])]
  have a4 : gpsFuse x q = q := by unfold gpsFuse; rw [if_neg (by simp [hq.2.2.1])]
  rw [a1, a2, a3, a4]
  exact ⟨hq.2.1, hq.1, hq.2.2.1⟩

/-- Non-vacuity of the GPS theorems: start with good data, stop after 11 s without data. -/
example : let x : In := { magType := 0, useGps := true, gpsReady := true, nedInit := true, now := 6000000, tDel := 6000000, lastPass := 6000000 }
    let s : St := { tilt := true, yawAlign := true }
    (controlGps x s).gps = true ∧ (controlGps { now := 20000000, tDel := 17000001, tGps := 6000000 } (controlGps x s)).gps = false := by
  decide +kernel

/-- Non-vacuity of `vision_yaw_lost`: reached from power-up. -/
example : let s := run {} [{ magType := 4, tiltConverged := true, useEvYaw := true, evReady := true, tEv := 6000000, now := 6000000, tDel := 6000000 }]
    s.evYaw = true ∧ s.inhibited = false ∧ s.gps = false ∧ s.magDist = false ∧ s.tilt = true ∧ s.doGsf = false ∧ s.yawAlign = true := by
  decide +kernel

/-! ### External vision -/

/-- **C109.** Vision position starts exactly when a recent sample arrives, vision position is configured and tilt and yaw are
aligned; the position is then reset.  Likewise vision velocity. -/
theorem ev_pos_start (x : In) (s : St) (h0 : s.evPos = false) :
    (controlEv x s).evPos = true ↔ x.evReady = true ∧ x.useEvPos = true ∧ s.tilt = true ∧ s.yawAlign = true ∧
      isRecent x.now x.tEv 400000 = true := by
  unfold controlEv
  by_cases a : x.evReady = true
  · rw [if_pos a]
    have : (evStart x s).evPos = (x.useEvPos && (s.tilt && s.yawAlign && isRecent x.now x.tEv 400000)) := by
      unfold evStart
      by_cases b : (s.tilt && s.yawAlign) = true
      · rw [if_pos b]
        by_cases c : isRecent x.now x.tEv 400000 = true
        · rw [if_pos c]
          by_cases d : (x.useEvPos && !s.evPos) = true
          · simp only [d, if_true]
            have hd : x.useEvPos = true := by simp at d; exact d.1
            split_ifs <;> simp [b, c, hd]
          · simp only [d]
            have hd : x.useEvPos = false := by simpa [h0] using d
            split_ifs <;> simp_all
        · rw [if_neg c]; simp_all
      · rw [if_neg b]; simp only [Bool.not_eq_true] at b; rw [h0]; simp [b]
    have e : ∀ t : St, (evVelUse x (evPosUse x (evYawStart x t))).evPos = t.evPos := by
      intro t
      simp
    dsimp only
    have e2 := e (evStart x s)
    rw [this] at e2
    split_ifs
    · simp only [act_evPos, e2, a]; simp; tauto
    · simp only [e2, a]; simp; tauto
  · rw [if_neg a]
    have ha : x.evReady = false := by simpa using a
    split_ifs <;> simp [stopEv, St.evt, h0, ha]

/-- **C109.** Vision aiding of all three kinds stops together, only when no vision data has arrived for the reset timeout, with an
event. -/
theorem ev_stop (x : In) (s : St) :
    (s.evPos = true → (controlEv x s).evPos = false → x.evReady = false ∧ isTimedOut x.now x.tEv x.resetTimeout = true ∧
      (controlEv x s).evVel = false ∧ (controlEv x s).evYaw = false ∧ Evt.visionStopped ∈ (controlEv x s).evts) ∧
    (x.evReady = false → isTimedOut x.now x.tEv x.resetTimeout = true →
      (controlEv x s).evPos = false ∧ (controlEv x s).evVel = false ∧ (controlEv x s).evYaw = false) := by
  unfold controlEv
  constructor
  · intro h0 h1
    by_cases a : x.evReady = true
    · rw [if_pos a] at h1
      have e2 : (evStart x s).evPos = true := by
        unfold evStart
        dsimp only
        split_ifs <;> simp_all
      have e3 : (evVelUse x (evPosUse x (evYawStart x (evStart x s)))).evPos = true := by
        rw [← e2]; simp
      dsimp only at h1
      split_ifs at h1 <;> simp_all
    · rw [if_neg a] at h1 ⊢
      by_cases b : ((s.evPos || s.evVel || s.evYaw) && isTimedOut x.now x.tEv x.resetTimeout) = true
      · rw [if_pos b]
        simp only [Bool.and_eq_true] at b
        exact ⟨by simpa using a, b.2, rfl, rfl, by simp [St.evt]⟩
      · rw [if_neg b, h0] at h1; cases h1
  · intro a b
    rw [if_neg (by simp [a])]
    by_cases c : (s.evPos || s.evVel || s.evYaw) = true
    · rw [if_pos (by simp [c, b])]; exact ⟨rfl, rfl, rfl⟩
    · rw [if_neg (by simp [c])]; simp only [Bool.not_eq_true, Bool.or_eq_false_iff] at c; exact ⟨c.1.1, c.1.2, c.2⟩

/-- **C109 (finding).** When vision positions are used as odometry, the first sample after any position reset is fused with an
observation variance that was never assigned (zero) and the innovation of the previous fusion. -/
theorem first_odometry_sample_zero_variance (x : In) (s : St) (he : x.evReady = true) (hg : x.useGps = true)
    (hp : s.evPos = true) (hv : s.evVel = true) (hy : s.evYaw = true ∨ x.useEvYaw = false) (hn : s.hposPrev = false) :
    Act.fusePos .unset ∈ (controlEv x s).log := by
  unfold controlEv
  rw [if_pos he]
  have e1 : evStart x s = s := by
    unfold evStart
    simp [hp, hv]
  have e2 : evYawStart x s = s := by
    unfold evYawStart
    rw [if_neg]
    rcases hy with k | k <;> simp [k]
  rw [e1, e2]
  have e3 : Act.fusePos .unset ∈ (evPosUse x s).log := by
    unfold evPosUse
    rw [if_pos hp]
    dsimp only
    rw [if_pos hg, if_pos (by simp [hn])]
    unfold fusePos
    dsimp only
    split_ifs <;> simp [St.act]
  have e4 := evVelUse_log_mem x _ _ e3
  dsimp only
  split_ifs
  · exact act_mem _ _ _ e4
  · exact e4

/-- **C109.** Every reset through `resetHorizontalPosition` - GPS timeout, yaw estimator reset, flow start, vision start - makes the next odometry sample such a
first sample.  The start of GPS does not (C166, `gps_start_remembers`). -/
theorem reset_forgets_previous (x : In) (s : St) : (resetPos x s).hposPrev = false ∧ (gpsTimeoutReset x s).hposPrev = false := by
  constructor
  · rfl
  · simp [gpsTimeoutReset, resetPos, St.evt]

/-- Non-vacuity: reached from power-up with GPS and vision. -/
example : let x : UInt64 → In := fun t =>
      { tiltConverged := true, magReady := true, useEvPos := true, useEvVel := true, useGps := true, evReady := true, tEv := t, now := t, tDel := t, evPosOk := true }
    let s := run {} [x 6000000]
    s.evPos = true ∧ s.evVel = true ∧ Act.fusePos .unset ∈ s.log := by decide +kernel

/-! ### Fake position -/

/-- **C110.** Synthetic position is used exactly when no source is active and the pair airspeed and sideslip is not either. -/
theorem synthetic_iff (x : In) (s : St) :
    (controlFake x s).synth = (!(s.aid x).active && !(s.fuseAspd && x.fuseBeta)) := by
  unfold controlFake
  by_cases a : (!(s.aid x).active && !(s.fuseAspd && x.fuseBeta)) = true
  · rw [if_pos a, a]
    dsimp only
    by_cases b : isTimedOut x.now s.tFake 200000 = true
    · rw [if_pos b]
      by_cases c : isTimedOut x.now s.tFake 400000 = true
      · rw [if_pos c]
        split_ifs <;> simp
      · rw [if_neg c]
        split_ifs <;> simp
    · rw [if_neg b]
  · rw [if_neg a]; simp only [Bool.not_eq_true] at a; rw [a]

/-- **C110.** While synthetic position is in use a fusion happens exactly when more than 0.2 s have passed since the previous one;
after a gap of more than 0.4 s position and velocity are reset first; the noise follows the situation. -/
theorem synthetic_fusion (x : In) (s : St) (h : (!(s.aid x).active && !(s.fuseAspd && x.fuseBeta)) = true) :
    let v : PosVar := if x.inAir && s.tilt then .noaid else if x.atRest then .rest else .motion
    (controlFake x s).log = s.log ++ (if isTimedOut x.now s.tFake 200000 then
      (if isTimedOut x.now s.tFake 400000 then [.posReset (posSrc x s), .velReset (velSrc x s)] else []) ++ [.fusePos v]
      else []) ∧
    (controlFake x s).tFake = (if isTimedOut x.now s.tFake 200000 then x.now else s.tFake) ∧
    (controlFake x s).evts = s.evts ++ (if isTimedOut x.now s.tFake 200000 && isTimedOut x.now s.tFake 400000 && decide (s.tFake ≠ 0)
      then [.stoppingNavigation] else []) := by
  have fl : ∀ (v : PosVar) (ok : Bool) (t : St), (fusePos x v ok t).log = t.log ++ [.fusePos v] ∧ (fusePos x v ok t).evts = t.evts ∧
      (fusePos x v ok t).tFake = t.tFake := by
    intro v ok t
    unfold fusePos
    dsimp only
    split_ifs <;> exact ⟨rfl, rfl, rfl⟩
  unfold controlFake
  rw [if_pos h]
  dsimp only
  by_cases b : isTimedOut x.now s.tFake 200000 = true
  · rw [if_pos b, (fl _ _ _).1, (fl _ _ _).2.1, (fl _ _ _).2.2]
    by_cases c : isTimedOut x.now s.tFake 400000 = true
    · have e0 : (resetVel x (resetPos x { s with synth := true })).tFake = s.tFake := rfl
      by_cases d : s.tFake = 0
      · rw [if_pos c, if_pos (e0.trans d)]
        refine ⟨?_, by simp [b], ?_⟩
        · simp [resetVel, resetPos, St.act, posSrc, velSrc, b, c]
        · simp [resetVel, resetPos, St.act, b, c, d]
      · rw [if_pos c, if_neg (fun k => d (e0.symm.trans k))]
        refine ⟨?_, by simp [b], ?_⟩
        · simp [resetVel, resetPos, St.act, posSrc, velSrc, b, c]
        · simp [resetVel, resetPos, St.act, St.evt, b, c, d]
    · rw [if_neg c]
      refine ⟨?_, by simp [b], ?_⟩
      · simp [b, c]
      · simp [b, c]
  · rw [if_neg b]
    simp [b]

/-- Non-vacuity: at power-up the fake position is fused and nothing else is active. -/
example : (run {} [{ now := 300000, tDel := 300000 }]).synth = true ∧
    Act.fusePos .motion ∈ (run {} [{ now := 300000, tDel := 300000 }]).log := by decide +kernel

end Ecl.Aid
