import Verif.Aid.Reported
import Verif.Aid.Sources
import Verif.Aid.Odom
import Verif.Meas.YawTest

/-!
# What the innovation getters report: theorems (C167)
-/

namespace Ecl.Aid

variable {K : Type*} [Field K] [LinearOrder K]

@[simp] theorem repFake_gpsVel (x : In) (n : News K) (s : St) (r : Rep K) : (repFake x n s r).gpsVel = r.gpsVel := by unfold repFake; split_ifs <;> rfl
@[simp] theorem repFake_gpsVelZ (x : In) (n : News K) (s : St) (r : Rep K) : (repFake x n s r).gpsVelZ = r.gpsVelZ := by unfold repFake; split_ifs <;> rfl
@[simp] theorem repFake_gpsPosZ (x : In) (n : News K) (s : St) (r : Rep K) : (repFake x n s r).gpsPosZ = r.gpsPosZ := by unfold repFake; split_ifs <;> rfl
@[simp] theorem repFake_evVel (x : In) (n : News K) (s : St) (r : Rep K) : (repFake x n s r).evVel = r.evVel := by unfold repFake; split_ifs <;> rfl
@[simp] theorem repFake_evVelZ (x : In) (n : News K) (s : St) (r : Rep K) : (repFake x n s r).evVelZ = r.evVelZ := by unfold repFake; split_ifs <;> rfl
@[simp] theorem repFake_evPos (x : In) (n : News K) (s : St) (r : Rep K) : (repFake x n s r).evPos = r.evPos := by unfold repFake; split_ifs <;> rfl
@[simp] theorem repFake_evPosZ (x : In) (n : News K) (s : St) (r : Rep K) : (repFake x n s r).evPosZ = r.evPosZ := by unfold repFake; split_ifs <;> rfl
@[simp] theorem repFake_aux (x : In) (n : News K) (s : St) (r : Rep K) : (repFake x n s r).aux = r.aux := by unfold repFake; split_ifs <;> rfl
@[simp] theorem repFake_lastVel (x : In) (n : News K) (s : St) (r : Rep K) : (repFake x n s r).lastVel = r.lastVel := by unfold repFake; split_ifs <;> rfl
@[simp] theorem repFake_lastVar (x : In) (n : News K) (s : St) (r : Rep K) : (repFake x n s r).lastVar = r.lastVar := by unfold repFake; split_ifs <;> rfl
@[simp] theorem repAux_gpsVel (x : In) (n : News K) (s : St) (r : Rep K) : (repAux x n s r).gpsVel = r.gpsVel := by unfold repAux; split_ifs <;> rfl
@[simp] theorem repAux_gpsVelZ (x : In) (n : News K) (s : St) (r : Rep K) : (repAux x n s r).gpsVelZ = r.gpsVelZ := by unfold repAux; split_ifs <;> rfl
@[simp] theorem repAux_gpsPos (x : In) (n : News K) (s : St) (r : Rep K) : (repAux x n s r).gpsPos = r.gpsPos := by unfold repAux; split_ifs <;> rfl
@[simp] theorem repAux_gpsPosZ (x : In) (n : News K) (s : St) (r : Rep K) : (repAux x n s r).gpsPosZ = r.gpsPosZ := by unfold repAux; split_ifs <;> rfl
@[simp] theorem repAux_evVel (x : In) (n : News K) (s : St) (r : Rep K) : (repAux x n s r).evVel = r.evVel := by unfold repAux; split_ifs <;> rfl
@[simp] theorem repAux_evVelZ (x : In) (n : News K) (s : St) (r : Rep K) : (repAux x n s r).evVelZ = r.evVelZ := by unfold repAux; split_ifs <;> rfl
@[simp] theorem repAux_evPos (x : In) (n : News K) (s : St) (r : Rep K) : (repAux x n s r).evPos = r.evPos := by unfold repAux; split_ifs <;> rfl
@[simp] theorem repAux_evPosZ (x : In) (n : News K) (s : St) (r : Rep K) : (repAux x n s r).evPosZ = r.evPosZ := by unfold repAux; split_ifs <;> rfl
@[simp] theorem repEv_gpsVel (x : In) (n : News K) (s : St) (r : Rep K) : (repEv x n s r).gpsVel = r.gpsVel := by unfold repEv; dsimp only; split_ifs <;> first | rfl | (unfold repEvVel repEvPos; split_ifs <;> rfl)
@[simp] theorem repEv_gpsVelZ (x : In) (n : News K) (s : St) (r : Rep K) : (repEv x n s r).gpsVelZ = r.gpsVelZ := by unfold repEv; dsimp only; split_ifs <;> first | rfl | (unfold repEvVel repEvPos; split_ifs <;> rfl)
@[simp] theorem repEv_gpsPos (x : In) (n : News K) (s : St) (r : Rep K) : (repEv x n s r).gpsPos = r.gpsPos := by unfold repEv; dsimp only; split_ifs <;> first | rfl | (unfold repEvVel repEvPos; split_ifs <;> rfl)
@[simp] theorem repEv_gpsPosZ (x : In) (n : News K) (s : St) (r : Rep K) : (repEv x n s r).gpsPosZ = r.gpsPosZ := by unfold repEv; dsimp only; split_ifs <;> first | rfl | (unfold repEvVel repEvPos; split_ifs <;> rfl)
@[simp] theorem repEv_aux (x : In) (n : News K) (s : St) (r : Rep K) : (repEv x n s r).aux = r.aux := by unfold repEv; dsimp only; split_ifs <;> first | rfl | (unfold repEvVel repEvPos; split_ifs <;> rfl)
@[simp] theorem repHgt_gpsVel (n : News K) (r : Rep K) : (repHgt n r).gpsVel = r.gpsVel := by unfold repHgt; cases n.hgt <;> rfl
@[simp] theorem repHgt_gpsVelZ (n : News K) (r : Rep K) : (repHgt n r).gpsVelZ = r.gpsVelZ := by unfold repHgt; cases n.hgt <;> rfl
@[simp] theorem repHgt_gpsPos (n : News K) (r : Rep K) : (repHgt n r).gpsPos = r.gpsPos := by unfold repHgt; cases n.hgt <;> rfl
@[simp] theorem repHgt_evVel (n : News K) (r : Rep K) : (repHgt n r).evVel = r.evVel := by unfold repHgt; cases n.hgt <;> rfl
@[simp] theorem repHgt_evVelZ (n : News K) (r : Rep K) : (repHgt n r).evVelZ = r.evVelZ := by unfold repHgt; cases n.hgt <;> rfl
@[simp] theorem repHgt_evPos (n : News K) (r : Rep K) : (repHgt n r).evPos = r.evPos := by unfold repHgt; cases n.hgt <;> rfl
@[simp] theorem repHgt_aux (n : News K) (r : Rep K) : (repHgt n r).aux = r.aux := by unfold repHgt; cases n.hgt <;> rfl
@[simp] theorem repHgt_lastVel (n : News K) (r : Rep K) : (repHgt n r).lastVel = r.lastVel := by unfold repHgt; cases n.hgt <;> rfl
@[simp] theorem repHgt_lastVar (n : News K) (r : Rep K) : (repHgt n r).lastVar = r.lastVar := by unfold repHgt; cases n.hgt <;> rfl
@[simp] theorem repGps_evVel (x : In) (n : News K) (s : St) (r : Rep K) : (repGps x n s r).evVel = r.evVel := by unfold repGps; dsimp only; split_ifs <;> first | rfl | (unfold repGpsFuse repFailing; split_ifs <;> rfl)
@[simp] theorem repGps_evVelZ (x : In) (n : News K) (s : St) (r : Rep K) : (repGps x n s r).evVelZ = r.evVelZ := by unfold repGps; dsimp only; split_ifs <;> first | rfl | (unfold repGpsFuse repFailing; split_ifs <;> rfl)
@[simp] theorem repGps_evPos (x : In) (n : News K) (s : St) (r : Rep K) : (repGps x n s r).evPos = r.evPos := by unfold repGps; dsimp only; split_ifs <;> first | rfl | (unfold repGpsFuse repFailing; split_ifs <;> rfl)
@[simp] theorem repGps_evPosZ (x : In) (n : News K) (s : St) (r : Rep K) : (repGps x n s r).evPosZ = r.evPosZ := by unfold repGps; dsimp only; split_ifs <;> first | rfl | (unfold repGpsFuse repFailing; split_ifs <;> rfl)
@[simp] theorem repGps_aux (x : In) (n : News K) (s : St) (r : Rep K) : (repGps x n s r).aux = r.aux := by unfold repGps; dsimp only; split_ifs <;> first | rfl | (unfold repGpsFuse repFailing; split_ifs <;> rfl)

/-- the state when the GPS part of a step starts -/
theorem step_gps (x : In) (s : St) :
    (step x s).gps = (controlGps x (controlFlow x (controlMag x (flowArrival x (tiltAlign x (requests x { s with log := [], evts := [] })))))).gps := by
  unfold step
  simp

theorem pre_gps (x : In) (s : St) :
    (controlFlow x (controlMag x (flowArrival x (tiltAlign x (requests x { s with log := [], evts := [] }))))).gps = s.gps := by
  simp

theorem pre_ev (x : In) (s : St) :
    let t := controlFlow x (controlMag x (flowArrival x (tiltAlign x (requests x { s with log := [], evts := [] }))))
    t.evPos = s.evPos ∧ t.evVel = s.evVel ∧ t.evYaw = s.evYaw := by
  simp

/-- what the GPS part does to the four GPS channels -/
theorem repGps_cases (x : In) (n : News K) (s : St) (r : Rep K) :
    (x.gpsReady = true → (controlGps x s).gps = true → (repGps x n s r).gpsVel = Spec.horRow n.gpsVel ∧ (repGps x n s r).gpsVelZ = Spec.verRow n.gpsVelZ ∧
      (repGps x n s r).gpsPos = Spec.horRow n.gpsPos ∧ (repGps x n s r).lastVel = n.gpsObs ∧ (repGps x n s r).lastVar = (n.gpsVel.r0, n.gpsVel.r1)) ∧
    (s.gps = true → (controlGps x s).gps = false → (x.gpsReady = true → x.useGps = true) → repGps x n s r = r.stopGps) ∧
    (x.gpsReady = false → (controlGps x s).gps = s.gps → repGps x n s r = r) ∧
    (x.gpsReady = true → x.useGps = false → repGps x n s r = r) ∧
    (s.gps = false → (controlGps x s).gps = false → repGps x n s r = r ∨ repGps x n s r = r.stopGps) := by
  unfold repGps
  by_cases a : x.gpsReady = true
  · rw [if_pos a]
    have hc : (controlGps x s).gps = (gpsFailing x (gpsStart x (controlGpsYaw x s))).gps := by
      unfold controlGps
      rw [if_pos a]
      simp
    rw [hc]
    dsimp only
    have hg : (gpsResets x (gsfAlign x (gpsFailing x (gpsStart x (controlGpsYaw x s))))).gps = (gpsFailing x (gpsStart x (controlGpsYaw x s))).gps := by simp
    have hf : ∀ q : Rep K, repGpsFuse n (gpsResets x (gsfAlign x (gpsFailing x (gpsStart x (controlGpsYaw x s))))) q =
        (if (gpsFailing x (gpsStart x (controlGpsYaw x s))).gps then
          { q with
            gpsVel := Spec.horRow n.gpsVel
            gpsVelZ := Spec.verRow n.gpsVelZ
            gpsPos := Spec.horRow n.gpsPos
            lastVel := n.gpsObs
            lastVar := (n.gpsVel.r0, n.gpsVel.r1) } else q) := by
      intro q
      unfold repGpsFuse
      rw [hg]
      rfl
    rw [hf]
    have hs1 : s.gps = true → x.useGps = true → (gpsStart x (controlGpsYaw x s)).gps = true := by
      intro h1 h2
      unfold gpsStart
      rw [if_neg (by simp [h1]), if_neg (by simp [h2])]
      simpa using h1
    have hs2 : x.useGps = false → (gpsStart x (controlGpsYaw x s)).gps = false := by
      intro h2
      unfold gpsStart
      rw [if_neg (by simp [h2]), if_pos (by simp [h2])]
    generalize gpsStart x (controlGpsYaw x s) = g at hs1 hs2 ⊢
    have hfail : (g.gps && isTimedOut x.now x.lastPass 5000000 && (g.aid x).isOther g.gps) = true → (gpsFailing x g).gps = false := by
      intro h
      unfold gpsFailing
      rw [if_pos h]
      dsimp only
      split <;> simp [stopGps, resetPos, St.evt, St.act]
    have hkeep : ¬ (g.gps && isTimedOut x.now x.lastPass 5000000 && (g.aid x).isOther g.gps) = true → (gpsFailing x g).gps = g.gps := by
      intro h
      unfold gpsFailing
      rw [if_neg h]
    have hon : (g.gps && isTimedOut x.now x.lastPass 5000000 && (g.aid x).isOther g.gps) = true → g.gps = true := by
      intro h
      simp only [Bool.and_eq_true] at h
      exact h.1.1
    unfold repFailing
    generalize (g.gps && isTimedOut x.now x.lastPass 5000000 && (g.aid x).isOther g.gps) = b at hfail hkeep hon ⊢
    refine ⟨?_, ?_, ?_, ?_, ?_⟩
    · intro _ h
      rw [if_pos h]
      exact ⟨rfl, rfl, rfl, rfl, rfl⟩
    · intro h1 h2 h3
      rw [if_neg (by simp [h2])]
      cases b
      · have := hkeep (by simp)
        rw [h2, hs1 h1 (h3 a)] at this
        cases this
      · rw [if_pos rfl]
    · intro h
      rw [a] at h
      cases h
    · intro _ h
      have h0 := hs2 h
      cases b
      · rw [if_neg (by simp [hkeep (by simp), h0]), if_neg (by simp)]
      · rw [hon rfl] at h0
        cases h0
    · intro _ h2
      rw [if_neg (by simp [h2])]
      cases b
      · exact Or.inl rfl
      · exact Or.inr rfl
  · rw [if_neg a]
    have ha : x.gpsReady = false := by simpa using a
    have hn : ∀ q : Prop, (x.gpsReady = true → q) := fun _ h => absurd h a
    unfold controlGps
    rw [if_neg a]
    refine ⟨hn _, ?_, ?_, hn _, ?_⟩
    · intro h1 h2 _
      by_cases b : (s.gps && elapsed x.tDel x.tGps 10000000) = true
      · rw [if_pos b]
      · rw [if_neg b] at h2 ⊢
        by_cases c : (s.gps && elapsed x.tDel x.tGps 1000000 && (s.aid x).isOther s.gps) = true
        · rw [if_pos c]
        · rw [if_neg c, h1] at h2
          cases h2
    · intro _ h
      by_cases b : (s.gps && elapsed x.tDel x.tGps 10000000) = true
      · rw [if_pos b] at h
        simp only [Bool.and_eq_true] at b
        rw [b.1] at h
        cases h
      · rw [if_neg b] at h ⊢
        by_cases c : (s.gps && elapsed x.tDel x.tGps 1000000 && (s.aid x).isOther s.gps) = true
        · rw [if_pos c] at h
          simp only [Bool.and_eq_true] at c
          rw [c.1.1] at h
          cases h
        · rw [if_neg c]
    · intro h _
      left
      rw [if_neg (by simp [h]), if_neg (by simp [h])]

/-- the reported values when the GPS part starts, and what the later parts leave alone -/
theorem later_gps (x : In) (n : News K) (s : St) (r : Rep K) :
    (repStep x n s r).gpsVel = (repGps x n (controlFlow x (controlMag x (flowArrival x (tiltAlign x (requests x { s with log := [], evts := [] }))))) r).gpsVel ∧
    (repStep x n s r).gpsVelZ = (repGps x n (controlFlow x (controlMag x (flowArrival x (tiltAlign x (requests x { s with log := [], evts := [] }))))) r).gpsVelZ := by
  unfold repStep
  simp

/-- **C167.** GPS velocity, one filter step: if the sample of this step was used (a sample arrived and GPS aiding is on at the end of the step), the reported
innovations, innovation variances and test ratios are those of this sample; if GPS aiding was stopped, they are zero; otherwise they are the old ones.  The one case
left out, GPS aiding switched off by the parameter while a sample arrives, is `disabled_gps_reads_stale`. -/
theorem gps_velocity_reported (x : In) (n : News K) (s : St) (r : Rep K) :
    (x.gpsReady = true → (step x s).gps = true →
      (repStep x n s r).gpsVel = Spec.horRow n.gpsVel ∧ (repStep x n s r).gpsVelZ = Spec.verRow n.gpsVelZ) ∧
    (s.gps = true → (step x s).gps = false → (x.gpsReady = true → x.useGps = true) →
      (repStep x n s r).gpsVel = .zero ∧ (repStep x n s r).gpsVelZ = .zero) ∧
    (x.gpsReady = false → (step x s).gps = s.gps → (repStep x n s r).gpsVel = r.gpsVel ∧ (repStep x n s r).gpsVelZ = r.gpsVelZ) ∧
    (s.gps = false → (step x s).gps = false →
      (repStep x n s r).gpsVel = r.gpsVel ∧ (repStep x n s r).gpsVelZ = r.gpsVelZ ∨
      (repStep x n s r).gpsVel = .zero ∧ (repStep x n s r).gpsVelZ = .zero) := by
  have hs := step_gps x s
  obtain ⟨l1, l2⟩ := later_gps x n s r
  rw [l1, l2, hs]
  have hp := pre_gps x s
  obtain ⟨c1, c2, c3, _, c5⟩ := repGps_cases x n (controlFlow x (controlMag x (flowArrival x (tiltAlign x (requests x { s with log := [], evts := [] }))))) r
  rw [hp] at c2 c3 c5
  generalize controlFlow x (controlMag x (flowArrival x (tiltAlign x (requests x { s with log := [], evts := [] })))) = t at c1 c2 c3 c5 ⊢
  refine ⟨fun h1 h2 => ⟨(c1 h1 h2).1, (c1 h1 h2).2.1⟩, fun h1 h2 h3 => ?_, fun h1 h2 => ?_, fun h1 h2 => ?_⟩
  · rw [c2 h1 h2 h3]
    exact ⟨rfl, rfl⟩
  · rw [c3 h1 h2]
    exact ⟨rfl, rfl⟩
  · rcases c5 h1 h2 with h | h
    · rw [h]
      exact Or.inl ⟨rfl, rfl⟩
    · rw [h]
      exact Or.inr ⟨rfl, rfl⟩

/-- **C167 (finding).** When GPS aiding is switched off through the parameter, the numbers of the last sample used stay in place: nothing tells them from current ones. -/
theorem disabled_gps_reads_stale (x : In) (n : News K) (s : St) (r : Rep K) (hr : x.gpsReady = true) (hu : x.useGps = false) :
    (step x s).gps = false ∧ (repStep x n s r).gpsVel = r.gpsVel ∧ (repStep x n s r).gpsVelZ = r.gpsVelZ := by
  obtain ⟨l1, l2⟩ := later_gps x n s r
  rw [l1, l2, step_gps]
  obtain ⟨_, _, _, c4, _⟩ := repGps_cases x n (controlFlow x (controlMag x (flowArrival x (tiltAlign x (requests x { s with log := [], evts := [] }))))) r
  rw [c4 hr hu]
  refine ⟨?_, rfl, rfl⟩
  generalize controlFlow x (controlMag x (flowArrival x (tiltAlign x (requests x { s with log := [], evts := [] })))) = t
  have y0 : (gpsStart x (controlGpsYaw x t)).gps = false := by
    unfold gpsStart
    rw [if_neg (by simp [hu]), if_pos (by simp [hu])]
  have y1 : (gpsFailing x (gpsStart x (controlGpsYaw x t))).gps = false := by
    unfold gpsFailing
    rw [if_neg (by simp [y0])]
    exact y0
  unfold controlGps
  rw [if_pos hr]
  simpa using y1


/-- the flags on which the fake position depends do not change after the vision part -/
theorem aid_fake (x : In) (s : St) : (controlFake x s).aid x = s.aid x := by simp [St.aid]
theorem aid_aux (x : In) (s : St) : (controlAux x s).aid x = s.aid x := by simp [St.aid]

/-- the state when the fake position part starts -/
theorem fake_cond (x : In) (n : News K) (s : St) (r : Rep K) :
    ∃ t : St, (step x s).synth = (!(t.aid x).active && !(t.fuseAspd && x.fuseBeta)) ∧ t.gps = (step x s).gps ∧ t.tFake = s.tFake ∧
      ∃ q : Rep K, repStep x n s r = repFake x n t q ∧
        q.gpsPos = (repGps x n (controlFlow x (controlMag x (flowArrival x (tiltAlign x (requests x { s with log := [], evts := [] }))))) r).gpsPos ∧
        q.gpsPosZ = (repHgt n (repGps x n (controlFlow x (controlMag x (flowArrival x (tiltAlign x (requests x { s with log := [], evts := [] }))))) r)).gpsPosZ := by
  refine ⟨controlAux x (controlEv x (controlDrag x (controlBeta x (controlAir x (controlGps x (controlFlow x (controlMag x (flowArrival x (tiltAlign x
    (requests x { s with log := [], evts := [] })))))))))), ?_, ?_, ?_, _, rfl, ?_, ?_⟩
  · unfold step
    exact synthetic_iff _ _
  · rw [step_gps]
    simp
  · simp
  · simp
  · simp

/-- **C167.** Horizontal GPS position, one filter step: the entries of the GPS sample if it was used; while the position is held by synthetic measurements, those of
the synthetic position (see `without_aiding_gps_reports_fake`); zero after a stop; otherwise the old ones. -/
theorem gps_position_reported (x : In) (n : News K) (s : St) (r : Rep K) :
    (x.gpsReady = true → (step x s).gps = true → (repStep x n s r).gpsPos = Spec.horRow n.gpsPos) ∧
    ((step x s).synth = true → isTimedOut x.now s.tFake 200000 = true → (repStep x n s r).gpsPos = Spec.horRow n.fake) ∧
    (((step x s).synth = false ∨ isTimedOut x.now s.tFake 200000 = false) →
      (s.gps = true → (step x s).gps = false → (x.gpsReady = true → x.useGps = true) → (repStep x n s r).gpsPos = .zero) ∧
      (x.gpsReady = false → (step x s).gps = s.gps → (repStep x n s r).gpsPos = r.gpsPos) ∧
      (x.gpsReady = true → x.useGps = false → (repStep x n s r).gpsPos = r.gpsPos)) ∧
    (∀ o, n.hgt = .gps o → (repStep x n s r).gpsPosZ = Spec.verRow o) := by
  obtain ⟨t, h1, h2, h3, q, h4, h5, h6⟩ := fake_cond x n s r
  have hg := step_gps x s
  have hp := pre_gps x s
  obtain ⟨c1, c2, c3, c4, _⟩ := repGps_cases x n (controlFlow x (controlMag x (flowArrival x (tiltAlign x (requests x { s with log := [], evts := [] }))))) r
  rw [hp, ← hg] at c2 c3
  rw [← hg] at c1
  have keep : (step x s).synth = false ∨ isTimedOut x.now s.tFake 200000 = false → (repFake x n t q).gpsPos = q.gpsPos := by
    intro h
    unfold repFake
    rw [← h1, h3]
    rcases h with h | h
    · rw [h, if_neg (by simp)]
    · split_ifs <;> first | rfl | simp_all
  rw [h4]
  refine ⟨fun a b => ?_, fun a b => ?_, fun a => ⟨fun b c d => ?_, fun b c => ?_, fun b c => ?_⟩, fun o ho => ?_⟩
  · have hsy : (step x s).synth = false := by
      rw [h1, active_of_gps x t (by rw [h2, b])]
      rfl
    rw [keep (Or.inl hsy), h5]
    exact (c1 a b).2.2.1
  · unfold repFake
    rw [← h1, h3, a, b]
    rfl
  · rw [keep a, h5, c2 b c d]
    rfl
  · rw [keep a, h5, c3 b c]
  · rw [keep a, h5, c4 b c]
  · rw [repFake_gpsPosZ, h6]
    unfold repHgt
    rw [ho]
    rfl

/-- **C167 (finding).** With no aiding at all the getters for GPS report the comparison of the estimate with its own last known position, although no GPS data exist. -/
theorem without_aiding_gps_reports_fake (x : In) (n : News K) (s : St) (r : Rep K) (hs : (step x s).synth = true)
    (ht : isTimedOut x.now s.tFake 200000 = true) : (step x s).gps = false ∧ (repStep x n s r).gpsPos = Spec.horRow n.fake := by
  refine ⟨?_, (gps_position_reported x n s r).2.1 hs ht⟩
  obtain ⟨t, h1, h2, -⟩ := fake_cond x n s r
  by_contra h
  have : (step x s).gps = true := by simpa using h
  rw [active_of_gps x t (by rw [h2, this])] at h1
  rw [hs] at h1
  cases h1

/-! ### External vision -/

theorem evUses_flags (x : In) (s : St) : let t := evYawStart x (evStart x s)
    (x.evReady = true → (controlEv x s).evPos = t.evPos ∧ (controlEv x s).evVel = t.evVel) := by
  intro t a
  unfold controlEv
  rw [if_pos a]
  dsimp only
  split_ifs <;> simp [t]

theorem evStart_keeps (x : In) (s : St) : (s.evPos = true → (evYawStart x (evStart x s)).evPos = true) ∧
    (s.evVel = true → (evYawStart x (evStart x s)).evVel = true) := by
  rw [evYawStart_evPos, evYawStart_evVel]
  unfold evStart
  dsimp only
  constructor
  · intro h
    split_ifs <;> simp_all
  · intro h
    split_ifs <;> simp_all

/-- what the vision part does to its channels; `s` is the state at its start -/
theorem repEv_cases (x : In) (n : News K) (s : St) (r : Rep K) :
    (x.evReady = true →
      (repEv x n s r).evVel = (if (controlEv x s).evVel then Spec.horRow n.evVel else r.evVel) ∧
      (repEv x n s r).evVelZ = (if (controlEv x s).evVel then Spec.verRow n.evVelZ else r.evVelZ) ∧
      (repEv x n s r).lastVel = (if (controlEv x s).evVel then n.evObs else r.lastVel) ∧
      (repEv x n s r).lastVar = (if (controlEv x s).evVel then (n.evVel.r0, n.evVel.r1) else r.lastVar) ∧
      (repEv x n s r).evPos = (if (controlEv x s).evPos then
          (if x.useGps = true ∧ (evYawStart x (evStart x s)).hposPrev = false then r.evPos.fuse n.evPos else Spec.horRow n.evPos) else r.evPos) ∧
      (repEv x n s r).evPosZ = r.evPosZ) ∧
    (x.evReady = false →
      ((s.evPos = true ∧ (controlEv x s).evPos = false ∨ s.evVel = true ∧ (controlEv x s).evVel = false → repEv x n s r = r.stopEv) ∧
      ((controlEv x s).evPos = true ∨ (controlEv x s).evVel = true → repEv x n s r = r) ∧
      (repEv x n s r = r ∨ repEv x n s r = r.stopEv))) := by
  constructor
  · intro a
    obtain ⟨f1, f2⟩ := evUses_flags x s a
    rw [f1, f2]
    unfold repEv
    rw [if_pos a]
    dsimp only
    generalize evYawStart x (evStart x s) = t
    have hv : (evPosUse x t).evVel = t.evVel := by simp
    unfold repEvVel repEvPos
    rw [hv]
    cases t.evVel <;> cases t.evPos <;> cases x.useGps <;> cases t.hposPrev <;> exact ⟨rfl, rfl, rfl, rfl, rfl, rfl⟩
  · intro a
    have a' : ¬ x.evReady = true := by simp [a]
    unfold repEv controlEv
    rw [if_neg a', if_neg a']
    by_cases b : ((s.evPos || s.evVel || s.evYaw) && isTimedOut x.now x.tEv x.resetTimeout) = true
    · rw [if_pos b, if_pos b]
      refine ⟨fun _ => rfl, fun h => ?_, Or.inr rfl⟩
      rcases h with h | h <;> cases h
    · rw [if_neg b, if_neg b]
      refine ⟨?_, fun _ => rfl, Or.inl rfl⟩
      rintro (⟨h1, h2⟩ | ⟨h1, h2⟩)
      · rw [h1] at h2; cases h2
      · rw [h1] at h2; cases h2

/-- the state and the reported values when the vision part of a step starts -/
theorem vision_part (x : In) (n : News K) (s : St) (r : Rep K) :
    ∃ t : St, ∃ q : Rep K, t.evPos = s.evPos ∧ t.evVel = s.evVel ∧ (step x s).evPos = (controlEv x t).evPos ∧ (step x s).evVel = (controlEv x t).evVel ∧
      q.evVel = r.evVel ∧ q.evVelZ = r.evVelZ ∧ q.evPos = r.evPos ∧
      (repStep x n s r).evVel = (repEv x n t q).evVel ∧ (repStep x n s r).evVelZ = (repEv x n t q).evVelZ ∧
      (repStep x n s r).evPos = (repEv x n t q).evPos ∧ (repStep x n s r).evPosZ = (repEv x n t q).evPosZ ∧
      (∀ o, n.hgt = .ev o → q.evPosZ = Spec.verRow o) := by
  refine ⟨controlDrag x (controlBeta x (controlAir x (controlGps x (controlFlow x (controlMag x (flowArrival x (tiltAlign x
    (requests x { s with log := [], evts := [] })))))))),
    repHgt n (repGps x n (controlFlow x (controlMag x (flowArrival x (tiltAlign x (requests x { s with log := [], evts := [] }))))) r),
    by simp, by simp, ?_, ?_, by simp, by simp, by simp, ?_, ?_, ?_, ?_, ?_⟩
  · unfold step; simp
  · unfold step; simp
  · unfold repStep; simp
  · unfold repStep; simp
  · unfold repStep; simp
  · unfold repStep; simp
  · intro o ho
    unfold repHgt
    rw [ho]
    rfl

/-- **C167.** Vision velocity, one filter step: the entries of this sample if one arrived and vision velocity is in use at the end of the step, zero if the use was
stopped, otherwise the old ones (or zero, if another use of vision was stopped). -/
theorem vision_velocity_reported (x : In) (n : News K) (s : St) (r : Rep K) :
    (x.evReady = true → (step x s).evVel = true →
      (repStep x n s r).evVel = Spec.horRow n.evVel ∧ (repStep x n s r).evVelZ = Spec.verRow n.evVelZ) ∧
    (x.evReady = true → (step x s).evVel = false → (repStep x n s r).evVel = r.evVel ∧ (repStep x n s r).evVelZ = r.evVelZ) ∧
    (s.evVel = true → (step x s).evVel = false → (repStep x n s r).evVel = .zero ∧ (repStep x n s r).evVelZ = .zero) ∧
    (x.evReady = false → (step x s).evVel = true → s.evVel = true → (repStep x n s r).evVel = r.evVel ∧ (repStep x n s r).evVelZ = r.evVelZ) ∧
    ((step x s).evVel = false →
      (repStep x n s r).evVel = r.evVel ∧ (repStep x n s r).evVelZ = r.evVelZ ∨ (repStep x n s r).evVel = .zero ∧ (repStep x n s r).evVelZ = .zero) := by
  obtain ⟨t, q, e1, e2, e3, e4, q1, q2, q3, g1, g2, g3, -⟩ := vision_part x n s r
  obtain ⟨c1, c2⟩ := repEv_cases x n t q
  rw [g1, g2, e4, ← q1, ← q2]
  have keep := (evStart_keeps x t).2
  refine ⟨fun a b => ?_, fun a b => ?_, fun a b => ?_, fun a b c => ?_, fun b => ?_⟩
  · obtain ⟨k1, k2, -⟩ := c1 a
    rw [k1, k2, b]
    exact ⟨rfl, rfl⟩
  · obtain ⟨k1, k2, -⟩ := c1 a
    rw [k1, k2, b]
    exact ⟨rfl, rfl⟩
  · cases d : x.evReady
    · rw [(c2 d).1 (Or.inr ⟨by rw [e2, a], b⟩)]
      exact ⟨rfl, rfl⟩
    · have := keep (by rw [e2, a])
      rw [← ((evUses_flags x t) d).2, b] at this
      cases this
  · rw [(c2 a).2.1 (Or.inr b)]
    exact ⟨rfl, rfl⟩
  · cases d : x.evReady
    · rcases (c2 d).2.2 with h | h
      · rw [h]
        exact Or.inl ⟨rfl, rfl⟩
      · rw [h]
        exact Or.inr ⟨rfl, rfl⟩
    · obtain ⟨k1, k2, -⟩ := c1 d
      rw [k1, k2, b]
      exact Or.inl ⟨rfl, rfl⟩

/-- **C167.** Vision position (horizontal), one filter step: as for the velocity, except that the first sample used as odometry refreshes the variances and the ratio
around the innovations that were there before. -/
theorem vision_position_reported (x : In) (n : News K) (s : St) (r : Rep K) :
    (x.evReady = true → x.useGps = false → (step x s).evPos = true → (repStep x n s r).evPos = Spec.horRow n.evPos) ∧
    (x.evReady = true → x.useGps = true → (step x s).evPos = true →
      (repStep x n s r).evPos = Spec.horRow n.evPos ∨
      (repStep x n s r).evPos = Spec.horRow { n.evPos with i0 := r.evPos.i0, i1 := r.evPos.i1 }) ∧
    (s.evPos = true → (step x s).evPos = false → (repStep x n s r).evPos = .zero) ∧
    (x.evReady = true → (step x s).evPos = false → (repStep x n s r).evPos = r.evPos) ∧
    (x.evReady = false → (step x s).evPos = true → (repStep x n s r).evPos = r.evPos) ∧
    ((step x s).evPos = false → (repStep x n s r).evPos = r.evPos ∨ (repStep x n s r).evPos = .zero) ∧
    (x.evReady = true → ∀ o, n.hgt = .ev o → (repStep x n s r).evPosZ = Spec.verRow o) := by
  obtain ⟨t, q, e1, e2, e3, e4, q1, q2, q3, g1, g2, g3, g4, g5⟩ := vision_part x n s r
  obtain ⟨c1, c2⟩ := repEv_cases x n t q
  rw [g3, g4, e3, ← q3]
  have keep := (evStart_keeps x t).1
  refine ⟨fun a u b => ?_, fun a u b => ?_, fun a b => ?_, fun a b => ?_, fun a b => ?_, fun b => ?_, fun a o ho => ?_⟩
  · obtain ⟨-, -, -, -, k, -⟩ := c1 a
    rw [k, if_pos b, u]
    rfl
  · obtain ⟨-, -, -, -, k, -⟩ := c1 a
    rw [k, if_pos b]
    split_ifs
    · exact Or.inr rfl
    · exact Or.inl rfl
  · cases d : x.evReady
    · rw [(c2 d).1 (Or.inl ⟨by rw [e1, a], b⟩)]
      rfl
    · have := keep (by rw [e1, a])
      rw [← ((evUses_flags x t) d).1, b] at this
      cases this
  · obtain ⟨-, -, -, -, k, -⟩ := c1 a
    rw [k, if_neg (by simp [b])]
  · rw [(c2 a).2.1 (Or.inl b)]
  · cases d : x.evReady
    · rcases (c2 d).2.2 with h | h
      · rw [h]
        exact Or.inl rfl
      · rw [h]
        exact Or.inr rfl
    · obtain ⟨-, -, -, -, k, -⟩ := c1 d
      rw [k, if_neg (by simp [b])]
      exact Or.inl rfl
  · rw [(c1 a).2.2.2.2.2, g5 o ho]

/-- **C167 (finding).** Which of the two it is: with vision position already in use at the start of the vision part of the step (state `t`), a sample used as odometry
is reported with its own innovations exactly if a previous sample is remembered; the first one after a position reset is reported, and judged, with the innovations of
the sample before. -/
theorem first_odometry_sample_reports_old_innovation (x : In) (n : News K) (t : St) (r : Rep K) (hr : x.evReady = true) (hu : x.useGps = true)
    (hp : t.evPos = true) :
    (repEv x n t r).evPos = (if t.hposPrev then Spec.horRow n.evPos else Spec.horRow { n.evPos with i0 := r.evPos.i0, i1 := r.evPos.i1 }) := by
  obtain ⟨-, -, -, -, k, -⟩ := (repEv_cases x n t r).1 hr
  have hon : (controlEv x t).evPos = true := by
    rw [((evUses_flags x t) hr).1]
    exact (evStart_keeps x t).1 hp
  have hprev : (evYawStart x (evStart x t)).hposPrev = t.hposPrev := by
    rw [evYawStart_hposPrev]
    unfold evStart
    dsimp only
    split_ifs <;> simp_all [resetVel, St.act, St.evt]
  rw [k, hon, if_pos rfl, hu, hprev]
  cases t.hposPrev <;> rfl

/-! ### Auxiliary velocity and the velocity used by the yaw failure test -/

theorem repGps_last (x : In) (n : News K) (s : St) (r : Rep K) :
    (repGps x n s r).lastVel = (if x.gpsReady = true ∧ (controlGps x s).gps = true then n.gpsObs else r.lastVel) ∧
    (repGps x n s r).lastVar = (if x.gpsReady = true ∧ (controlGps x s).gps = true then (n.gpsVel.r0, n.gpsVel.r1) else r.lastVar) := by
  obtain ⟨c1, c2, c3, c4, c5⟩ := repGps_cases x n s r
  by_cases a : x.gpsReady = true ∧ (controlGps x s).gps = true
  · rw [if_pos a, if_pos a]
    exact ⟨(c1 a.1 a.2).2.2.2.1, (c1 a.1 a.2).2.2.2.2⟩
  · rw [if_neg a, if_neg a]
    have : repGps x n s r = r ∨ repGps x n s r = r.stopGps := by
      rcases Bool.eq_false_or_eq_true x.gpsReady with b | b
      · have d : (controlGps x s).gps = false := by
          by_contra h
          exact a ⟨b, by simpa using h⟩
        rcases Bool.eq_false_or_eq_true x.useGps with u | u
        · rcases Bool.eq_false_or_eq_true s.gps with e | e
          · exact Or.inr (c2 e d (fun _ => u))
          · exact c5 e d
        · exact Or.inl (c4 b u)
      · rcases Bool.eq_false_or_eq_true (controlGps x s).gps with d | d
        · rcases Bool.eq_false_or_eq_true s.gps with e | e
          · exact Or.inl (c3 b (by rw [d, e]))
          · have := (gps_start_conditions x s e d).1
            rw [b] at this
            cases this
        · rcases Bool.eq_false_or_eq_true s.gps with e | e
          · exact Or.inr (c2 e d (fun h => by rw [b] at h; cases h))
          · exact c5 e d
    rcases this with h | h <;> rw [h] <;> exact ⟨rfl, rfl⟩

theorem repEv_last (x : In) (n : News K) (s : St) (r : Rep K) :
    (repEv x n s r).lastVel = (if x.evReady = true ∧ (controlEv x s).evVel = true then n.evObs else r.lastVel) ∧
    (repEv x n s r).lastVar = (if x.evReady = true ∧ (controlEv x s).evVel = true then (n.evVel.r0, n.evVel.r1) else r.lastVar) := by
  obtain ⟨c1, c2⟩ := repEv_cases x n s r
  rcases Bool.eq_false_or_eq_true x.evReady with b | b
  · obtain ⟨-, -, k1, k2, -⟩ := c1 b
    rw [k1, k2, b]
    simp only [true_and, and_self]
  · rw [b, if_neg (by simp), if_neg (by simp)]
    rcases (c2 b).2.2 with h | h <;> rw [h] <;> exact ⟨rfl, rfl⟩

/-- the state and the reported values when the auxiliary part of a step starts -/
theorem aux_part (x : In) (n : News K) (s : St) (r : Rep K) :
    ∃ t : St, ∃ q : Rep K, (t.aid x).active = ((step x s).aid x).active ∧ q.aux = r.aux ∧
      (repStep x n s r).aux = (repAux x n t q).aux ∧ (repStep x n s r).lastVel = (repAux x n t q).lastVel ∧
      (repStep x n s r).lastVar = (repAux x n t q).lastVar ∧
      q.lastVel = (if x.evReady = true ∧ (step x s).evVel = true then n.evObs else if x.gpsReady = true ∧ (step x s).gps = true then n.gpsObs else r.lastVel) ∧
      q.lastVar = (if x.evReady = true ∧ (step x s).evVel = true then (n.evVel.r0, n.evVel.r1)
        else if x.gpsReady = true ∧ (step x s).gps = true then (n.gpsVel.r0, n.gpsVel.r1) else r.lastVar) := by
  have hg := step_gps x s
  have hev : (step x s).evVel = (controlEv x (controlDrag x (controlBeta x (controlAir x (controlGps x (controlFlow x (controlMag x (flowArrival x (tiltAlign x
    (requests x { s with log := [], evts := [] })))))))))).evVel := by unfold step; simp
  have hst : step x s = controlFake x (controlAux x (controlEv x (controlDrag x (controlBeta x (controlAir x (controlGps x (controlFlow x (controlMag x
    (flowArrival x (tiltAlign x (requests x { s with log := [], evts := [] }))))))))))) := rfl
  have hrs : repStep x n s r = repFake x n (controlAux x (controlEv x (controlDrag x (controlBeta x (controlAir x (controlGps x (controlFlow x (controlMag x
      (flowArrival x (tiltAlign x (requests x { s with log := [], evts := [] })))))))))))
    (repAux x n (controlEv x (controlDrag x (controlBeta x (controlAir x (controlGps x (controlFlow x (controlMag x
      (flowArrival x (tiltAlign x (requests x { s with log := [], evts := [] }))))))))))
    (repEv x n (controlDrag x (controlBeta x (controlAir x (controlGps x (controlFlow x (controlMag x
      (flowArrival x (tiltAlign x (requests x { s with log := [], evts := [] })))))))))
      (repHgt n (repGps x n (controlFlow x (controlMag x (flowArrival x (tiltAlign x (requests x { s with log := [], evts := [] }))))) r)))) := rfl
  rw [hev, hg]
  generalize controlFlow x (controlMag x (flowArrival x (tiltAlign x (requests x { s with log := [], evts := [] })))) = g at *
  generalize hd : controlDrag x (controlBeta x (controlAir x (controlGps x g))) = d at *
  refine ⟨controlEv x d, repEv x n d (repHgt n (repGps x n g r)), ?_, ?_, ?_, ?_, ?_, ?_, ?_⟩
  · rw [hst, aid_fake, aid_aux]
  · simp
  · rw [hrs]; simp
  · rw [hrs]; simp
  · rw [hrs]; simp
  · rw [(repEv_last x n d _).1, repHgt_lastVel, (repGps_last x n g r).1]
  · rw [(repEv_last x n d _).2, repHgt_lastVar, (repGps_last x n g r).2]

/-- **C167.** Auxiliary velocity, one filter step: the entries of this sample if one arrived while some horizontal aiding is active, otherwise the old ones. -/
theorem aux_velocity_reported (x : In) (n : News K) (s : St) (r : Rep K) :
    (repStep x n s r).aux = (if x.auxReady = true ∧ ((step x s).aid x).active = true then Spec.horRow n.aux else r.aux) := by
  obtain ⟨t, q, h1, h2, h3, -⟩ := aux_part x n s r
  rw [h3, ← h1, ← h2]
  unfold repAux
  simp only [Bool.and_eq_true]
  split_ifs <;> rfl

/-- **C168.** Which velocity is remembered for the yaw failure test: that of the last auxiliary sample used, else of vision, else of GPS — not the last GPS velocity. -/
theorem remembered_velocity (x : In) (n : News K) (s : St) (r : Rep K) :
    (repStep x n s r).lastVel = (if x.auxReady = true ∧ ((step x s).aid x).active = true then n.auxObs
      else if x.evReady = true ∧ (step x s).evVel = true then n.evObs
      else if x.gpsReady = true ∧ (step x s).gps = true then n.gpsObs
      else r.lastVel) := by
  obtain ⟨t, q, h1, h2, h3, h4, h5, h6, h7⟩ := aux_part x n s r
  rw [h4, ← h1, ← h6]
  unfold repAux
  simp only [Bool.and_eq_true]
  split_ifs <;> rfl

/-- **C168 (finding).** The variance remembered with it: for vision and GPS the observation variance; for an auxiliary sample the innovation variance reported for the
auxiliary sample before (zero if there was none) — neither its own variance nor its own innovation variance. -/
theorem remembered_variance (x : In) (n : News K) (s : St) (r : Rep K) :
    (repStep x n s r).lastVar = (if x.auxReady = true ∧ ((step x s).aid x).active = true then (r.aux.v0, r.aux.v1)
      else if x.evReady = true ∧ (step x s).evVel = true then (n.evVel.r0, n.evVel.r1)
      else if x.gpsReady = true ∧ (step x s).gps = true then (n.gpsVel.r0, n.gpsVel.r1)
      else r.lastVar) := by
  obtain ⟨t, q, h1, h2, h3, h4, h5, h6, h7⟩ := aux_part x n s r
  rw [h5, ← h1, ← h7, ← h2]
  unfold repAux
  simp only [Bool.and_eq_true]
  split_ifs <;> rfl

/-- the horizontal part of the remembered velocity and of its variance, as the test reads them (EKF/control.cpp:617-624) -/
def Rep.obs (r : Rep ℝ) : Fin 2 → ℝ := ![r.lastVel.1, r.lastVel.2]
/-- see `Rep.obs` -/
def Rep.obsVar (r : Rep ℝ) : Fin 2 → ℝ := ![r.lastVar.1, r.lastVar.2]

/-- **C168 (finding).** If the last step used an auxiliary velocity whose direction is within 25° of the velocity estimate — whatever the GPS velocity of this and all
earlier steps — the yaw failure test finds no wrong heading in the next step, so the reset of the heading (C123, C163) does not happen. -/
theorem aux_hides_wrong_heading (x : In) (n : News ℝ) (s : St) (r : Rep ℝ) (v pv : Fin 2 → ℝ) (ha : x.auxReady = true)
    (hact : ((step x s).aid x).active = true)
    (h : InnerProductGeometry.angle (Meas.Spec.vec ![n.auxObs.1, n.auxObs.2]) (Meas.Spec.vec v) ≤ 25 * (Real.pi / 180)) :
    Meas.yawFailure (repStep x n s r).obs v (repStep x n s r).obsVar pv = false := by
  rw [← Bool.not_eq_true, Meas.yaw_failure_iff]
  rintro ⟨-, -, -, -, k⟩
  have : (repStep x n s r).obs = ![n.auxObs.1, n.auxObs.2] := by
    unfold Rep.obs
    rw [remembered_velocity, if_pos ⟨ha, hact⟩]
  rw [this] at k
  linarith

/-! ### Histories -/

/-- the state along the same history -/
def stRun : St → List (In × News K) → St
  | s, [] => s
  | s, (x, _) :: xs => stRun (step x s) xs

theorem stRun_eq (s : St) (xs : List (In × News K)) : stRun s xs = run s (xs.map Prod.fst) := by
  induction xs generalizing s with
  | nil => rfl
  | cons y ys ih =>
    obtain ⟨x, n⟩ := y
    exact ih (step x s)

/-- **C167.** After any history from power-up: while vision velocity is not in use its reported entries are zero, and so are the horizontal entries of vision position
while that is not in use. -/
theorem idle_vision_reads_zero (xs : List (In × News K)) :
    ((run {} (xs.map Prod.fst)).evVel = false → (repRun {} Rep.init xs).evVel = .zero ∧ (repRun {} Rep.init xs).evVelZ = .zero) ∧
    ((run {} (xs.map Prod.fst)).evPos = false → (repRun {} Rep.init xs).evPos = .zero) := by
  rw [← stRun_eq]
  suffices h : ∀ (s : St) (r : Rep K), (s.evVel = false → r.evVel = .zero ∧ r.evVelZ = .zero) → (s.evPos = false → r.evPos = .zero) →
      ((stRun s xs).evVel = false → (repRun s r xs).evVel = .zero ∧ (repRun s r xs).evVelZ = .zero) ∧
      ((stRun s xs).evPos = false → (repRun s r xs).evPos = .zero) from
    h {} Rep.init (fun _ => ⟨rfl, rfl⟩) (fun _ => rfl)
  induction xs with
  | nil => exact fun s r h1 h2 => ⟨h1, h2⟩
  | cons y ys ih =>
    obtain ⟨x, n⟩ := y
    intro s r h1 h2
    refine ih (step x s) (repStep x n s r) (fun h => ?_) (fun h => ?_)
    · obtain ⟨-, -, c3, -, c5⟩ := vision_velocity_reported x n s r
      rcases Bool.eq_false_or_eq_true s.evVel with e | e
      · exact c3 e h
      · rcases c5 h with k | k
        · rw [k.1, k.2]
          exact h1 e
        · exact k
    · obtain ⟨-, -, c3, -, -, c5, -⟩ := vision_position_reported x n s r
      rcases Bool.eq_false_or_eq_true s.evPos with e | e
      · exact c3 e h
      · rcases c5 h with k | k
        · rw [k]
          exact h2 e
        · exact k

/-- **C167.** After any history from power-up in which GPS use was never switched off by the parameter when a sample arrived: while GPS aiding is off the reported GPS
velocity entries are zero. -/
theorem idle_gps_velocity_reads_zero (xs : List (In × News K)) (hp : ∀ y ∈ xs, y.1.gpsReady = true → y.1.useGps = true)
    (ho : (run {} (xs.map Prod.fst)).gps = false) :
    (repRun {} Rep.init xs).gpsVel = .zero ∧ (repRun {} Rep.init xs).gpsVelZ = .zero := by
  rw [← stRun_eq] at ho
  suffices h : ∀ (s : St) (r : Rep K), (s.gps = false → r.gpsVel = .zero ∧ r.gpsVelZ = .zero) → (stRun s xs).gps = false →
      (repRun s r xs).gpsVel = .zero ∧ (repRun s r xs).gpsVelZ = .zero from h {} Rep.init (fun _ => ⟨rfl, rfl⟩) ho
  clear ho
  induction xs with
  | nil => exact fun s r h1 h2 => h1 h2
  | cons y ys ih =>
    obtain ⟨x, n⟩ := y
    intro s r h1
    refine ih (fun z hz => hp z (List.mem_cons_of_mem _ hz)) (step x s) (repStep x n s r) (fun h => ?_)
    obtain ⟨-, c2, -, c5⟩ := gps_velocity_reported x n s r
    rcases Bool.eq_false_or_eq_true s.gps with e | e
    · exact c2 e h (hp (x, n) List.mem_cons_self)
    · rcases c5 e h with k | k
      · rw [k.1, k.2]
        exact h1 e
      · exact k

/-- **C167 (finding).** The auxiliary entries are never cleared: whatever happens later, they are those of the last sample used. -/
theorem aux_never_cleared (xs : List (In × News K)) (s : St) (r : Rep K)
    (h : ∀ y ∈ xs, y.1.auxReady = false) : (repRun s r xs).aux = r.aux := by
  induction xs generalizing s r with
  | nil => rfl
  | cons y ys ih =>
    obtain ⟨x, n⟩ := y
    have hx : x.auxReady = false := h (x, n) List.mem_cons_self
    have := ih (step x s) (repStep x n s r) (fun z hz => h z (List.mem_cons_of_mem _ hz))
    rw [aux_velocity_reported, if_neg (by simp [hx])] at this
    exact this

/-! ### Concrete histories -/

/-- numbers of a step -/
def exNews (k : ℚ) : News ℚ :=
  { gpsVel := { i0 := k, i1 := 2, p0 := 1, p1 := 1, r0 := 1, r1 := 3, gate := 1 }
    gpsVelZ := { i := k, p := 1, r := 1, gate := 2 }
    gpsPos := { i0 := 3, i1 := k, p0 := 1, p1 := 1, r0 := 1, r1 := 1, gate := 1 }
    hgt := .gps { i := 5, p := 1, r := 1, gate := 1 }
    evPos := { i0 := 7, i1 := k, p0 := 2, p1 := 2, r0 := 1, r1 := 1, gate := 1 }
    evVel := { i0 := 8, i1 := k, p0 := 2, p1 := 2, r0 := 1, r1 := 1, gate := 1 }
    evVelZ := { i := 9, p := 1, r := 1, gate := 1 }
    aux := { i0 := 10, i1 := k, p0 := 3, p1 := 3, r0 := 1, r1 := 1, gate := 1 }
    fake := { i0 := 11, i1 := k, p0 := 4, p1 := 4, r0 := 1, r1 := 1, gate := 3 }
    gpsObs := (20, k), evObs := (21, k), auxObs := (22, k) }

/-- a step with a GPS sample -/
def exGps (t : UInt64) : In :=
  { now := t, tDel := t, tGps := t, lastPass := t, gpsReady := true, useGps := true, nedInit := true, gpsVelOk := true, gpsPosOk := true }
/-- a step with a vision sample -/
def exEv (t : UInt64) : In :=
  { now := t, tDel := t, tEv := t, evReady := true, useEvPos := true, useEvVel := true, evPosOk := true, evVelOk := true, resetTimeout := 7000000,
    tGps := t, useGps := true, lastPass := t }
/-- an aligned filter -/
def exStart : St := { tilt := true, yawAlign := true, tFake := 9900000 }

/-- Non-vacuity: a GPS sample starts aiding and is reported; ten seconds without data and the report is zero again. -/
example : (step (exGps 10000000) exStart).gps = true ∧
    (repStep (exGps 10000000) (exNews 1) exStart Rep.init).gpsVel = { i0 := 1, i1 := 2, v0 := 2, v1 := 4, ratio := 1 } ∧
    (repStep (exGps 10000000) (exNews 1) exStart Rep.init).gpsPosZ = { i := 5, v := 2, ratio := 25 / 2 } ∧
    (run exStart [exGps 10000000, { now := 30000000, tDel := 30000000, tGps := 10000000 }]).gps = false ∧
    (repRun exStart Rep.init [(exGps 10000000, exNews 1), ({ now := 30000000, tDel := 30000000, tGps := 10000000 }, exNews 4)]).gpsVel = .zero := by
  decide +kernel

/-- Witness for `disabled_gps_reads_stale`: the same sample is still reported after GPS use has been switched off. -/
example : let h : List (In × News ℚ) := [(exGps 10000000, exNews 1), ({ exGps 10200000 with useGps := false }, exNews 4), ({ now := 10300000, tDel := 10300000 }, exNews 4)]
    (run exStart (h.map Prod.fst)).gps = false ∧ (repRun exStart Rep.init h).gpsVel = { i0 := 1, i1 := 2, v0 := 2, v1 := 4, ratio := 1 } := by
  decide +kernel

/-- Witness for `without_aiding_gps_reports_fake`. -/
example : (step { now := 10200000, tDel := 10200000 } exStart).synth = true ∧ isTimedOut 10200000 exStart.tFake 200000 = true ∧
    (repStep { now := 10200000, tDel := 10200000 } (exNews 1) exStart Rep.init).gpsPos = { i0 := 11, i1 := 1, v0 := 5, v1 := 5, ratio := 121 / 45 } := by
  decide +kernel

/-- Non-vacuity of the vision theorems: the first sample used as odometry is reported with innovation zero (the one from before), the second with its own; velocity is
reported at once; without a sample for the timeout everything is zero. -/
example : let h : List (In × News ℚ) := [(exEv 10000000, exNews 1), (exEv 10100000, exNews 1)]
    (step (exEv 10000000) exStart).evPos = true ∧ (step (exEv 10000000) exStart).evVel = true ∧
    (repStep (exEv 10000000) (exNews 1) exStart Rep.init).evPos = { i0 := 0, i1 := 0, v0 := 3, v1 := 3, ratio := 0 } ∧
    (repStep (exEv 10000000) (exNews 1) exStart Rep.init).evVel = { i0 := 8, i1 := 1, v0 := 3, v1 := 3, ratio := 64 / 3 } ∧
    (repRun exStart Rep.init h).evPos = { i0 := 7, i1 := 1, v0 := 3, v1 := 3, ratio := 49 / 3 } ∧
    (repRun exStart Rep.init (h ++ [({ exEv 30000000 with evReady := false, tEv := 10100000 }, exNews 1)])).evPos = .zero ∧
    (run exStart ((h ++ [({ exEv 30000000 with evReady := false, tEv := 10100000 }, exNews 1)]).map Prod.fst)).evPos = false := by
  decide +kernel

/-- Non-vacuity of the auxiliary theorems: two samples after GPS; the remembered velocity is the auxiliary one and the remembered variance the innovation variance of the
first of the two. -/
example : let h : List (In × News ℚ) := [(exGps 10000000, exNews 1), ({ exGps 10100000 with auxReady := true }, exNews 1), ({ exGps 10200000 with auxReady := true }, exNews 6)]
    (run exStart (h.map Prod.fst)).gps = true ∧ (repRun exStart Rep.init h).aux = { i0 := 10, i1 := 6, v0 := 4, v1 := 4, ratio := 25 } ∧
    (repRun exStart Rep.init h).lastVel = (22, 6) ∧ (repRun exStart Rep.init h).lastVar = (4, 4) ∧
    (repRun exStart Rep.init (h.take 2)).lastVar = (0, 0) := by
  decide +kernel

/-- Witness for `aux_hides_wrong_heading`: GPS reports 10 m/s to the north, estimate and auxiliary sensor 10 m/s to the south. -/
example : ∃ (x : In) (n : News ℝ) (s : St) (v : Fin 2 → ℝ), x.auxReady = true ∧ ((step x s).aid x).active = true ∧ (step x s).gps = true ∧ x.gpsReady = true ∧
    n.gpsObs = (10, 0) ∧ v = ![-10, 0] ∧ Meas.yawFailure ![n.gpsObs.1, n.gpsObs.2] v ![1, 1] ![1, 1] = true ∧
    InnerProductGeometry.angle (Meas.Spec.vec ![n.auxObs.1, n.auxObs.2]) (Meas.Spec.vec v) ≤ 25 * (Real.pi / 180) := by
  let o : HorObs ℝ := { i0 := 0, i1 := 0, p0 := 1, p1 := 1, r0 := 1, r1 := 1, gate := 1 }
  let z : VerObs ℝ := { i := 0, p := 1, r := 1, gate := 1 }
  refine ⟨{ exGps 10000000 with auxReady := true },
    { gpsVel := o, gpsVelZ := z, gpsPos := o, hgt := .other, evPos := o, evVel := o, evVelZ := z, aux := o, fake := o, gpsObs := (10, 0), evObs := (0, 0), auxObs := (-10, 0) },
    exStart, ![-10, 0], rfl, by decide +kernel, by decide +kernel, rfl, rfl, rfl, ?_, ?_⟩
  · unfold Meas.yawFailure
    norm_num [sq]
  · rw [InnerProductGeometry.angle_self]
    · have := Real.pi_pos
      positivity
    · intro h
      have : ‖Meas.Spec.vec ![-10, 0]‖ ^ 2 = 0 := by rw [h]; simp
      rw [Meas.vec_norm_sq] at this
      norm_num at this

end Ecl.Aid
