import Verif.Aid.Align
import Verif.Aid.Grow

/-!
# Vision position used as odometry starves the GPS position timer (C107)
-/

namespace Ecl.Aid

theorem active_of_gps (x : In) (s : St) (h : s.gps = true) : (s.aid x).active = true := by
  simp [St.aid, Interface.AidFlags.active, Interface.AidFlags.count, h]

/-- the GPS step when positions are counted as odometry: the absolute position timer moves only with a reset -/
theorem controlGps_odom (x : In) (s : St) (h : s.hposOdom = true) (hd : s.doGsf = false) (hv : x.velAngleBad = false) :
    (controlGps x s).hposOdom = true ∧ (controlGps x s).doGsf = false ∧
    ((controlGps x s).tPos = s.tPos ∨ Evt.gpsTimeout ∈ (controlGps x s).evts) ∧
    (x.gpsReady = true → (controlGps x s).gps = true → isTimedOut x.now s.tPos (2 * x.resetTimeout) = true →
      Evt.gpsTimeout ∈ (controlGps x s).evts) := by
  unfold controlGps
  by_cases a : x.gpsReady = true
  · rw [if_pos a]
    have hf1 : (gpsFailing x (gpsStart x (controlGpsYaw x s))).hposOdom = true := by simpa using h
    have hf2 : (gpsFailing x (gpsStart x (controlGpsYaw x s))).doGsf = false := by simpa using hd
    have hf3 : (gpsFailing x (gpsStart x (controlGpsYaw x s))).tPos = s.tPos := by simp
    generalize gpsFailing x (gpsStart x (controlGpsYaw x s)) = f at hf1 hf2 hf3
    have hg : gsfAlign x f = f := by unfold gsfAlign; rw [if_neg (by simp [hf2])]
    rw [hg]
    have hn : needGsfReset x f = false := by simp [needGsfReset, yawFailure, hf2, hv]
    unfold gpsResets
    by_cases g : f.gps = true
    · rw [if_pos g, if_neg (by simp [hn])]
      by_cases r : needVelPosReset x f = true
      · rw [if_pos r]
        have e1 : (gpsTimeoutReset x f).hposOdom = true := by simpa using hf1
        have e2 : (gpsTimeoutReset x f).doGsf = false := by simpa using hf2
        have e3 : Evt.gpsTimeout ∈ (gpsTimeoutReset x f).evts := by
          unfold gpsTimeoutReset
          simp [St.evt]
        have e4 := gpsFuse_evts_mem x _ _ e3
        exact ⟨by simpa using e1, by simpa using e2, Or.inr e4, fun _ _ _ => e4⟩
      · rw [if_neg r]
        have e5 : (gpsFuse x f).tPos = f.tPos := by
          unfold gpsFuse fusePos
          rw [if_pos g]
          dsimp only
          simp only [act_hposOdom, fuseVelHor_hposOdom, hf1]
          split_ifs <;> simp_all
        refine ⟨by simpa using hf1, by simpa using hf2, Or.inl (by rw [e5, hf3]), fun _ _ t => ?_⟩
        rw [← hf3] at t
        exact absurd (by simp [needVelPosReset, t]) r
    · rw [if_neg g]
      have hu : gpsFuse x f = f := by unfold gpsFuse; rw [if_neg g]
      rw [hu]
      exact ⟨hf1, hf2, Or.inl hf3, fun _ k _ => absurd k g⟩
  · rw [if_neg a]
    split_ifs
    · exact ⟨h, hd, Or.inl rfl, fun k => absurd k a⟩
    · exact ⟨h, hd, Or.inl rfl, fun k => absurd k a⟩
    · exact ⟨h, hd, Or.inl rfl, fun k => absurd k a⟩

/-- the vision step with GPS configured keeps counting positions as odometry -/
theorem controlEv_odom (x : In) (s : St) (h : s.hposOdom = true) (hu : x.useGps = true) :
    (controlEv x s).hposOdom = true ∧ (controlEv x s).tPos = s.tPos := by
  have e : ∀ t : St, t.hposOdom = true → (evPosUse x t).hposOdom = true ∧ (evPosUse x t).tPos = t.tPos := by
    intro t ht
    unfold evPosUse
    by_cases a : t.evPos = true
    · rw [if_pos a]
      dsimp only
      rw [if_pos hu]
      by_cases b : (!t.hposPrev) = true
      · rw [if_pos b]
        unfold fusePos
        simp only [act_hposOdom, hu]
        split_ifs <;> simp_all
      · rw [if_neg b]
        unfold fusePos
        simp only [act_hposOdom, hu]
        split_ifs <;> simp_all
    · rw [if_neg a]; exact ⟨ht, rfl⟩
  unfold controlEv
  by_cases a : x.evReady = true
  · rw [if_pos a]
    obtain ⟨e1, e2⟩ := e (evYawStart x (evStart x s)) (by simpa using h)
    dsimp only
    generalize evPosUse x (evYawStart x (evStart x s)) = p at e1 e2
    have e3 : p.tPos = s.tPos := by simpa using e2
    split_ifs
    · simp [e1, e3]
    · simp [e1, e3]
  · rw [if_neg a]
    split_ifs
    · exact ⟨h, rfl⟩
    · exact ⟨h, rfl⟩

/-- no emergency request, no new origin, velocity direction consistent: the yaw estimator is not asked for a reset -/
def Quiet (x : In) : Prop := x.emergencyReq = false ∧ x.originSet = false ∧ x.velAngleBad = false

theorem odom_step (x : In) (s : St) (h : s.hposOdom = true) (hd : s.doGsf = false) (hu : x.useGps = true) (hq : Quiet x)
    (hg : (step x s).gps = true) :
    (step x s).hposOdom = true ∧ (step x s).doGsf = false ∧
    ((step x s).tPos = s.tPos ∨ Evt.gpsTimeout ∈ (step x s).evts) ∧
    (x.gpsReady = true → isTimedOut x.now s.tPos (2 * x.resetTimeout) = true → Evt.gpsTimeout ∈ (step x s).evts) := by
  have hs : step x s = controlFake x (controlAux x (controlEv x (controlDrag x (controlBeta x (controlAir x
      (controlGps x (controlFlow x (controlMag x (stMag x s)))))))))  := rfl
  have hm1 : (controlFlow x (controlMag x (stMag x s))).hposOdom = true := by unfold stMag; simpa using h
  have hm2 : (controlFlow x (controlMag x (stMag x s))).doGsf = false := by
    unfold stMag
    simp only [controlFlow_doGsf, controlMag_doGsf, flowArrival_doGsf, tiltAlign_doGsf]
    unfold requests
    simp only [hq.1, hq.2.1]
    split_ifs <;> simp_all
  have hm3 : (controlFlow x (controlMag x (stMag x s))).tPos = s.tPos := by unfold stMag; simp
  generalize controlFlow x (controlMag x (stMag x s)) = m at hs hm1 hm2 hm3
  obtain ⟨g1, g2, g3, g4⟩ := controlGps_odom x m hm1 hm2 hq.2.2
  generalize controlGps x m = g at hs g1 g2 g3 g4
  have hE := controlEv_odom x (controlDrag x (controlBeta x (controlAir x g))) (by simpa using g1) hu
  -- the tail of the step
  have hgps : g.gps = true := by rw [hs] at hg; simpa using hg
  have hact : ((controlAux x (controlEv x (controlDrag x (controlBeta x (controlAir x g))))).aid x).active = true := by
    have : (controlAux x (controlEv x (controlDrag x (controlBeta x (controlAir x g))))).gps = true := by simpa using hgps
    exact active_of_gps x _ this
  have hmem : Evt.gpsTimeout ∈ g.evts → Evt.gpsTimeout ∈ (step x s).evts := fun k => by
    rw [hs]
    exact controlFake_evts_mem _ _ _ (controlAux_evts_mem _ _ _ (controlEv_evts_mem _ _ _ (controlDrag_evts_mem _ _ _
      (controlBeta_evts_mem _ _ _ (controlAir_evts_mem _ _ _ k)))))
  have hfin : (step x s).hposOdom = true ∧ (step x s).tPos = g.tPos := by
    rw [hs]
    unfold controlFake
    rw [if_neg (by simp [hact])]
    refine ⟨by simpa using hE.1, ?_⟩
    simp only [controlAux_tPos, hE.2]
    simp
  refine ⟨hfin.1, by rw [hs]; simpa using g2, ?_, fun a b => ?_⟩
  · rcases g3 with k | k
    · exact Or.inl (by rw [hfin.2, k, hm3])
    · exact Or.inr (hmem k)
  · exact hmem (g4 a hgps (by rw [hm3]; exact b))

/-- **C107 (finding).** GPS aiding is active throughout and the positions are counted as odometry (vision position has been used
with GPS configured).  Whether the GPS positions are accepted or not - even if every single one is - a GPS sample that
arrives more than twice the reset timeout after the time the timer had at the start finds that a "GPS fusion timeout"
reset of position and velocity has been made, now or before. -/
theorem healthy_gps_times_out (xs : List In) (x : In) (s : St) (h : s.hposOdom = true) (hd : s.doGsf = false)
    (hx : ∀ y ∈ xs ++ [x], y.useGps = true ∧ Quiet y) (hg : ∀ t ∈ trace s (xs ++ [x]), t.gps = true)
    (hr : x.gpsReady = true) (ht : isTimedOut x.now s.tPos (2 * x.resetTimeout) = true) :
    ∃ t ∈ trace s (xs ++ [x]), Evt.gpsTimeout ∈ t.evts := by
  induction xs generalizing s with
  | nil =>
    obtain ⟨_, _, _, k⟩ := odom_step x s h hd (hx x (by simp)).1 (hx x (by simp)).2 (hg _ (by simp [trace]))
    exact ⟨step x s, by simp [trace], k hr ht⟩
  | cons y ys ih =>
    obtain ⟨a, b, c, _⟩ := odom_step y s h hd (hx y (by simp)).1 (hx y (by simp)).2 (hg _ (by simp [trace]))
    rcases c with c | c
    · obtain ⟨t, ht1, ht2⟩ := ih (step y s) a b (fun z hz => hx z (by simp at hz ⊢; tauto))
        (fun t ht => hg t (by simp only [List.cons_append, trace]; exact List.mem_cons_of_mem _ ht)) (by rw [c]; exact ht)
      exact ⟨t, by simp only [List.cons_append, trace]; exact List.mem_cons_of_mem _ ht1, ht2⟩
    · exact ⟨step y s, by simp [trace], c⟩

/-- Non-vacuity: a history from power-up in which every position and velocity of GPS and vision is accepted at 10 Hz; the
timeout is raised all the same.  The first three steps bring the filter into the state assumed by `healthy_gps_times_out`. -/
def goodBoth (t : UInt64) : In :=
  { tiltConverged := true, magReady := true, useGps := true, useEvPos := true, gpsReady := true, nedInit := true, lastPass := t,
    tGps := t, tPrevGps := t, now := t, tDel := t, gpsVelOk := true, gpsPosOk := true, evReady := true, tEv := t,
    evPosOk := true, evVelOk := true }

example : let s := run {} [goodBoth 6000000, goodBoth 6100000, goodBoth 6200000]
    let t := step (goodBoth 20500000) s
    s.hposOdom = true ∧ s.doGsf = false ∧ s.gps = true ∧ s.evPos = true ∧ t.gps = true ∧ Evt.gpsTimeout ∈ t.evts ∧
    isTimedOut 20500000 s.tPos (2 * 7000000) = true ∧ Act.posReset .gps ∈ t.log ∧ Act.velReset .gps ∈ t.log := by
  decide +kernel

/-- the same with samples every 0.1 s: the timeout occurs although no sample is older than 0.1 s -/
example : ∃ t ∈ trace {} ((List.range 160).map fun i => goodBoth (6000000 + 100000 * UInt64.ofNat i)),
    Evt.gpsTimeout ∈ t.evts := by
  decide +kernel

/-- **C107.** Without vision position an accepted GPS position restarts the timer. -/
theorem accepted_position_restarts_timer (x : In) (s : St) (h : s.hposOdom = false) (hr : x.gpsReady = true)
    (hk : x.gpsPosOk = true) (hg : (step x s).gps = true) (he : (step x s).evPos = false) : (step x s).tPos = x.now := by
  have hs : step x s = controlFake x (controlAux x (controlEv x (controlDrag x (controlBeta x (controlAir x
      (controlGps x (controlFlow x (controlMag x (stMag x s)))))))))  := rfl
  have hm1 : (controlFlow x (controlMag x (stMag x s))).hposOdom = false := by unfold stMag; simpa using h
  generalize controlFlow x (controlMag x (stMag x s)) = m at hs hm1
  have hgps : (controlGps x m).gps = true := by rw [hs] at hg; simpa using hg
  have hp : (controlGps x m).tPos = x.now ∧ (controlGps x m).hposOdom = false := by
    unfold controlGps at hgps ⊢
    rw [if_pos hr] at hgps ⊢
    have h1 : (gpsResets x (gsfAlign x (gpsFailing x (gpsStart x (controlGpsYaw x m))))).hposOdom = false := by simpa using hm1
    generalize gpsResets x (gsfAlign x (gpsFailing x (gpsStart x (controlGpsYaw x m)))) = r at hgps h1
    have h2 : r.gps = true := by simpa using hgps
    unfold gpsFuse fusePos
    rw [if_pos h2]
    dsimp only
    simp [h1, hk]
  generalize hgd : controlGps x m = g at hs hp hgps
  generalize hdd : controlDrag x (controlBeta x (controlAir x g)) = d at hs
  have hd1 : d.tPos = x.now ∧ d.gps = true := by rw [← hdd]; simp [hp.1, hgps]
  have hev : (controlEv x d).tPos = x.now := by
    have hev0 : (controlEv x d).evPos = false := by rw [hs] at he; simpa using he
    unfold controlEv at hev0 ⊢
    by_cases a : x.evReady = true
    · rw [if_pos a] at hev0 ⊢
      dsimp only at hev0 ⊢
      have hne : (evYawStart x (evStart x d)).evPos = false := by
        split_ifs at hev0 <;> simpa using hev0
      have hid : evPosUse x (evYawStart x (evStart x d)) = evYawStart x (evStart x d) := by
        unfold evPosUse; rw [if_neg (by rw [hne]; simp)]
      rw [hid]
      split_ifs <;> simp [hd1.1]
    · rw [if_neg a]
      split_ifs <;> simp [stopEv, hd1.1]
  rw [hs]
  have hact : ((controlAux x (controlEv x d)).aid x).active = true := by
    have : (controlAux x (controlEv x d)).gps = true := by simpa using hd1.2
    exact active_of_gps x _ this
  unfold controlFake
  rw [if_neg (by simp [hact])]
  simpa using hev

end Ecl.Aid
