import Verif.Aid.Sources

/-!
# Optical flow, air data, drag and auxiliary velocity (C111, C112)
-/

namespace Ecl.Aid

/-! ### Optical flow -/

/-- the sample survives the quality tests: good and compensated, or on ground and compensated -/
def flowUsable (x : In) (s : St) : Bool := s.flowReady && x.flowComp && (x.flowGood || !x.inAir)

/-- state after the motion and quality tests -/
theorem flowQuality_ready (x : In) (s : St) : (flowQuality x (flowMotion x s)).flowReady = flowUsable x s := by
  unfold flowQuality flowUsable
  have e : (flowMotion x s).flowReady = s.flowReady := by simp
  rw [e]
  by_cases a : s.flowReady = true
  · rw [if_pos a]
    split_ifs with b c
    · rw [e, a]; simp only [Bool.and_eq_true] at b; simp [b.1, b.2]
    · rw [e, a]; simp only [Bool.and_eq_true, Bool.not_eq_true'] at c; simp [c.1, c.2]
    · simp only [Bool.and_eq_true, Bool.not_eq_true', not_and, Bool.not_eq_true] at b c
      rw [a]
      cases h1 : x.flowGood <;> cases h2 : x.flowComp <;> cases h3 : x.inAir <;> simp_all
  · rw [if_neg a, e]; simp only [Bool.not_eq_true] at a; rw [a]; rfl

/-- inhibition as the user sees it: on ground without 5 s of quiet handling, in the air without valid terrain - unless flow is
required - and always without tilt alignment.  `good`, `bad`: last time of acceptable and of excessive motion. -/
def Inhibited (x : In) (s : St) (good bad : UInt64) : Prop :=
  (((x.inAir = false ∧ (x.tDel > good + 100000 ∨ x.tDel < bad + 5000000)) ∨ (x.inAir = true ∧ x.terrainValid = false)) ∧
    ¬ (x.inAir = true ∧ (x.deadReckoning = true ∨ (s.aid x).isOnly s.optFlow = true ∨
      (s.gps = true ∧ (if s.optFlow then x.gpsErr07 else x.gpsErr10) = true)))) ∨ s.tilt = false

theorem flowInhibit_iff (x : In) (s : St) : flowInhibit x s = true ↔ Inhibited x s s.tGood s.tBad := by
  unfold flowInhibit Inhibited flowRequired
  simp only [Bool.or_eq_true, Bool.and_eq_true, Bool.not_eq_true', decide_eq_false_iff_not, UInt64.not_le,
    Bool.and_eq_false_iff, Bool.or_eq_false_iff]
  cases h1 : x.inAir <;> cases h2 : x.terrainValid <;> cases h3 : s.tilt <;> cases h4 : x.deadReckoning <;>
    cases h5 : (s.aid x).isOnly s.optFlow <;> cases h6 : s.gps <;> cases h7 : s.optFlow <;> simp

/-- last time of acceptable and of excessive motion after this step -/
def motionTimes (x : In) (s : St) : UInt64 × UInt64 :=
  if x.inAir then (x.tDel, 0) else if x.motionExcessive then (s.tGood, x.tDel) else (x.tDel, s.tBad)

theorem flow_pre (x : In) (s : St) :
    let q := flowQuality x (flowMotion x s)
    (q.tGood, q.tBad) = motionTimes x s ∧ q.tilt = s.tilt ∧ q.gps = s.gps ∧ q.optFlow = s.optFlow ∧ q.aid x = s.aid x ∧
    q.yawAlign = s.yawAlign ∧ q.log = s.log ∧ q.tOf = s.tOf := by
  intro q
  have hq : q = flowQuality x (flowMotion x s) := rfl
  refine ⟨?_, by rw [hq]; simp, by rw [hq]; simp, by rw [hq]; simp, by rw [hq]; simp [St.aid], by rw [hq]; simp, ?_, by rw [hq]; simp⟩
  · have : (q.tGood, q.tBad) = ((flowMotion x s).tGood, (flowMotion x s).tBad) := by
      rw [hq]; unfold flowQuality; split_ifs <;> rfl
    rw [this]
    unfold flowMotion motionTimes
    cases h1 : x.inAir <;> cases h2 : x.motionExcessive <;> simp
  · rw [hq]; unfold flowQuality flowMotion; split_ifs <;> rfl

/-- **C111.** Flow aiding starts only with a usable sample, when configured and not inhibited, and with the yaw aligned. -/
theorem flow_start_conditions (x : In) (s : St) (h0 : s.optFlow = false) (h1 : (controlFlow x s).optFlow = true) :
    x.useOf = true ∧ flowUsable x s = true ∧ ¬ Inhibited x s (motionTimes x s).1 (motionTimes x s).2 ∧
    (controlFlow x s).yawAlign = true := by
  obtain ⟨p1, p2, p3, p4, p5, p6, p7, p8⟩ := flow_pre x s
  have pr := flowQuality_ready x s
  unfold controlFlow at h1 ⊢
  dsimp only at h1 ⊢
  generalize flowQuality x (flowMotion x s) = q at *
  have q0 : q.optFlow = false := by rw [p4]; exact h0
  by_cases a : q.flowReady = true
  swap
  · rw [if_neg a, if_neg (by simp [q0]), q0] at h1; cases h1
  rw [if_pos a, if_neg (by simp [q0])] at h1 ⊢
  have hinh : flowInhibit x q = true ↔ Inhibited x s (motionTimes x s).1 (motionTimes x s).2 := by
    rw [flowInhibit_iff, ← p1]
    unfold Inhibited
    rw [p2, p3, p4, p5]
  have fu : (flowUse x (flowStart x { q with flowInh := flowInhibit x q })).optFlow = (flowStart x { q with flowInh := flowInhibit x q }).optFlow := by simp
  rw [fu] at h1
  have fy : (flowUse x (flowStart x { q with flowInh := flowInhibit x q })).yawAlign = (flowStart x { q with flowInh := flowInhibit x q }).yawAlign := by simp
  rw [fy]
  unfold flowStart at h1 ⊢
  by_cases b : (x.useOf && !q.optFlow && !flowInhibit x q) = true
  swap
  · rw [if_neg b] at h1; exact absurd h1 (by simp [q0])
  rw [if_pos b] at h1 ⊢
  simp only [Bool.and_eq_true, Bool.not_eq_true'] at b
  dsimp only at h1 ⊢
  have c : (if (!q.yawAlign) = true then
        { (resetMagHeading x { q with flowInh := flowInhibit x q }).1 with yawAlign := (resetMagHeading x { q with flowInh := flowInhibit x q }).2 }
      else { q with flowInh := flowInhibit x q }).optFlow = false := by
    split_ifs <;> simp [q0]
  refine ⟨b.1.1, by rw [← pr]; exact a, fun k => ?_, ?_⟩
  · rw [← hinh, b.2] at k; cases k
  · generalize (if (!q.yawAlign) = true then
        { (resetMagHeading x { q with flowInh := flowInhibit x q }).1 with yawAlign := (resetMagHeading x { q with flowInh := flowInhibit x q }).2 }
      else { q with flowInh := flowInhibit x q }) = r at h1 c
    by_cases d : r.yawAlign = true
    · rw [if_pos d]
      split_ifs <;> simpa using d
    · rw [if_neg d, c] at h1; cases h1

/-- **C111.** Conversely a usable sample starts flow aiding when configured, not inhibited and the yaw is aligned. -/
theorem flow_starts (x : In) (s : St) (hu : x.useOf = true) (hr : flowUsable x s = true)
    (hi : ¬ Inhibited x s (motionTimes x s).1 (motionTimes x s).2) (hy : s.yawAlign = true) (h0 : s.optFlow = false) :
    (controlFlow x s).optFlow = true := by
  obtain ⟨p1, p2, p3, p4, p5, p6, p7, p8⟩ := flow_pre x s
  have pr := flowQuality_ready x s
  unfold controlFlow
  dsimp only
  generalize flowQuality x (flowMotion x s) = q at *
  have hinh : flowInhibit x q = false := by
    rw [← Bool.not_eq_true, flowInhibit_iff]
    have e1 : q.tGood = (motionTimes x s).1 := by rw [← p1]
    have e2 : q.tBad = (motionTimes x s).2 := by rw [← p1]
    rw [e1, e2]
    unfold Inhibited at hi ⊢
    rw [p2, p3, p4, p5]
    exact hi
  rw [if_pos (pr.trans hr), if_neg (by simp [p4, h0])]
  have w1 : ({ q with flowInh := flowInhibit x q } : St).optFlow = false := p4.trans h0
  have w2 : ({ q with flowInh := flowInhibit x q } : St).yawAlign = true := p6.trans hy
  have w3 : ({ q with flowInh := flowInhibit x q } : St).flowInh = false := hinh
  generalize ({ q with flowInh := flowInhibit x q } : St) = w at w1 w2 w3
  have fu : (flowUse x (flowStart x w)).optFlow = (flowStart x w).optFlow := by simp
  rw [fu]
  unfold flowStart
  rw [if_pos (show (x.useOf && !w.optFlow && !w.flowInh) = true by simp [hu, w1, w3]), if_neg (show ¬ (!w.yawAlign) = true by simp [w2])]
  dsimp only
  rw [if_pos w2]
  split_ifs <;> simp

/-- **C111.** Flow aiding stops exactly when a usable sample finds it deselected or inhibited, or when no usable sample is present
and the last sample is more than 10 s old. -/
theorem flow_stop_iff (x : In) (s : St) (h0 : s.optFlow = true) :
    (controlFlow x s).optFlow = false ↔
      if flowUsable x s = true then x.useOf = false ∨ Inhibited x s (motionTimes x s).1 (motionTimes x s).2
      else x.tDel > x.tFlow + 10000000 := by
  obtain ⟨p1, p2, p3, p4, p5, p6, p7, p8⟩ := flow_pre x s
  have pr := flowQuality_ready x s
  unfold controlFlow
  dsimp only
  generalize flowQuality x (flowMotion x s) = q at *
  have q0 : q.optFlow = true := by rw [p4]; exact h0
  have hinh : flowInhibit x q = true ↔ Inhibited x s (motionTimes x s).1 (motionTimes x s).2 := by
    rw [flowInhibit_iff, ← p1]
    unfold Inhibited
    rw [p2, p3, p4, p5]
  by_cases a : q.flowReady = true
  · rw [if_pos a, if_pos (pr.symm.trans a), ← hinh]
    by_cases b : (q.optFlow && (!x.useOf || flowInhibit x q)) = true
    · rw [if_pos b]
      simp only [Bool.and_eq_true, Bool.or_eq_true, Bool.not_eq_true'] at b
      exact ⟨fun _ => b.2, fun _ => rfl⟩
    · rw [if_neg b]
      have hb : ¬ (x.useOf = false ∨ flowInhibit x q = true) := by
        intro k; apply b; rw [q0]; rcases k with k | k <;> simp [k]
      have hs : flowStart x { q with flowInh := flowInhibit x q } = { q with flowInh := flowInhibit x q } := by
        unfold flowStart; rw [if_neg (by simp [q0])]
      rw [hs]
      have : (flowUse x { q with flowInh := flowInhibit x q }).optFlow = true := by simpa using q0
      rw [this]
      exact ⟨fun k => (by cases k), fun k => absurd k hb⟩
  · rw [if_neg a, if_neg (fun k => a (pr.trans k))]
    by_cases b : x.tDel ≤ x.tFlow + 10000000
    · rw [if_neg (by simp [b]), q0]
      exact ⟨fun k => (by cases k), fun k => absurd b (UInt64.not_le.mpr k)⟩
    · rw [if_pos (by simp [b, q0])]
      exact ⟨fun _ => UInt64.not_le.mp b, fun _ => rfl⟩

/-- **C111.** Flow is fused only while flow aiding is active, when the middle of the sample has passed the fusion horizon and the
terrain estimate was valid in the last 10 s; the sample is used up whether or not it is fused. -/
theorem flow_fused_conditions (x : In) (s : St) (h0 : Act.fuseFlow ∉ s.log) (h : Act.fuseFlow ∈ (controlFlow x s).log) :
    (controlFlow x s).optFlow = true ∧ flowUsable x s = true ∧ x.flowMid = true ∧ isRecent x.now x.tHagl 10000000 = true ∧
    (controlFlow x s).flowReady = false := by
  obtain ⟨p1, p2, p3, p4, p5, p6, p7, p8⟩ := flow_pre x s
  have pr := flowQuality_ready x s
  unfold controlFlow at h ⊢
  dsimp only at h ⊢
  generalize flowQuality x (flowMotion x s) = q at *
  by_cases a : q.flowReady = true
  swap
  · rw [if_neg a] at h
    split_ifs at h
    · exact absurd h (by rw [show (stopFlow q).log = q.log from rfl, p7]; exact h0)
    · exact absurd h (by rw [p7]; exact h0)
  rw [if_pos a] at h ⊢
  by_cases b : (q.optFlow && (!x.useOf || flowInhibit x q)) = true
  · rw [if_pos b] at h
    exact absurd h (by rw [show (stopFlow { q with flowInh := flowInhibit x q }).log = q.log from rfl, p7]; exact h0)
  rw [if_neg b] at h ⊢
  have nl : Act.fuseFlow ∉ (flowStart x { q with flowInh := flowInhibit x q }).log := by
    have base : Act.fuseFlow ∉ ({ q with flowInh := flowInhibit x q } : St).log := by rw [show ({ q with flowInh := flowInhibit x q } : St).log = q.log from rfl, p7]; exact h0
    generalize ({ q with flowInh := flowInhibit x q } : St) = w at base
    have hmh : Act.fuseFlow ∉ (resetMagHeading x w).1.log := by
      unfold resetMagHeading stopMag clearMagCov stopMagHdg stopMag3D resetMagStates
      dsimp only
      split_ifs <;> simp_all [St.act]
    have hr : ∀ w' : St, Act.fuseFlow ∉ w'.log → Act.fuseFlow ∉ (if w'.yawAlign then
        (if !(({ w' with optFlow := true, tOf := x.now } : St).aid x).isOther true then resetPos x (resetVel x { w' with optFlow := true, tOf := x.now })
          else { w' with optFlow := true, tOf := x.now }) else w' : St).log := by
      intro w' hw'
      split_ifs <;> simp [resetPos, resetVel, St.act, hw']
    unfold flowStart
    by_cases c : (x.useOf && !w.optFlow && !w.flowInh) = true
    · rw [if_pos c]
      by_cases d : (!w.yawAlign) = true
      · rw [if_pos d]; exact hr _ hmh
      · rw [if_neg d]; exact hr _ base
    · rw [if_neg c]; exact base
  generalize flowStart x { q with flowInh := flowInhibit x q } = f at h nl
  have fo : (flowUse x f).optFlow = f.optFlow := by simp
  unfold flowUse at h
  by_cases d : f.optFlow = true
  swap
  · rw [if_neg d] at h; exact absurd h nl
  rw [if_pos d] at h
  by_cases e : x.flowMid = true
  swap
  · rw [if_neg e] at h
    dsimp only at h
    split_ifs at h
    · simp [resetPos, resetVel, St.act, nl] at h
    · exact absurd h nl
  by_cases g : isRecent x.now x.tHagl 10000000 = true
  swap
  · rw [if_pos e, if_neg g] at h
    dsimp only at h
    split_ifs at h
    · simp [resetPos, resetVel, St.act, nl] at h
    · exact absurd h nl
  refine ⟨by rw [fo]; exact d, by rw [← pr]; exact a, e, g, ?_⟩
  unfold flowUse
  rw [if_pos d, if_pos e, if_pos g]
  dsimp only
  split_ifs <;> simp [resetPos, resetVel, St.act]

/-- Non-vacuity: on ground, quiet for more than 5 s, flow starts and is fused; with excessive motion it does not start. -/
example : let x : In := { useOf := true, flowGood := true, flowComp := true, flowMid := true, tHagl := 9000000, now := 9000000, tDel := 9000000 }
    let s : St := { flowReady := true, tilt := true, yawAlign := true, tBad := 3000000 }
    (controlFlow x s).optFlow = true ∧ Act.fuseFlow ∈ (controlFlow x s).log ∧
    (controlFlow { x with motionExcessive := true } s).optFlow = false := by decide +kernel

/-! ### Wind, airspeed, sideslip, drag -/

theorem air_tail (x : In) (r : St) (T : Bool) :
    let q : St := if T = true then
        (let s := if (!r.wind) = true then { r.act .windReset with wind := true, tArsp := x.now } else r
         if x.arspOk = true then { s.act .fuseAirspeed with tArsp := x.now, fuseAspd := true } else s.act .fuseAirspeed)
      else r
    q.wind = (r.wind || T) ∧ q.fuseAspd = ((T && x.arspOk) || r.fuseAspd) ∧
    q.log = r.log ++ (if T then (if r.wind then [] else [.windReset]) ++ [.fuseAirspeed] else []) := by
  cases h : r.wind <;> cases T <;> cases x.arspOk <;> simp [h]

/-- effect of the airspeed control on the two flags and on the operations -/
theorem controlAir_facts (x : In) (s : St) :
    let out := isTimedOut x.now s.tArsp 10000000
    let w := s.wind && !(s.synth || (out && isTimedOut x.now s.tBeta 10000000 && !x.useDrag))
    let T := !s.synth && x.tasReady && x.inAir
    (controlAir x s).wind = (w || T) ∧ (controlAir x s).fuseAspd = ((T && x.arspOk) || (s.fuseAspd && !out)) ∧
    (controlAir x s).log = s.log ++ (if T then (if w then [] else [.windReset]) ++ [.fuseAirspeed] else []) := by
  intro out w T
  unfold controlAir
  dsimp only
  have u : ∀ c : Bool, let t : St := if (s.wind && c) = true then { s with wind := false } else s
      t.wind = (s.wind && !c) ∧ t.synth = s.synth ∧ t.fuseAspd = s.fuseAspd ∧ t.log = s.log := by
    intro c
    cases h : s.wind <;> cases c <;> simp [h]
  have u1 := u (s.synth || (isTimedOut x.now s.tArsp 10000000 && isTimedOut x.now s.tBeta 10000000 && !x.useDrag))
  generalize (if (s.wind && (s.synth || (isTimedOut x.now s.tArsp 10000000 && isTimedOut x.now s.tBeta 10000000 && !x.useDrag))) = true
    then { s with wind := false } else s : St) = t at u1
  have v : let r : St := if (t.fuseAspd && isTimedOut x.now s.tArsp 10000000) = true then { t with fuseAspd := false } else t
      r.wind = t.wind ∧ r.synth = t.synth ∧ r.fuseAspd = (t.fuseAspd && !out) ∧ r.log = t.log := by
    have ho : out = isTimedOut x.now s.tArsp 10000000 := rfl
    rw [← ho]
    cases h : t.fuseAspd <;> cases out <;> simp [h]
  generalize (if (t.fuseAspd && isTimedOut x.now s.tArsp 10000000) = true then { t with fuseAspd := false } else t : St) = r at v
  obtain ⟨r1, r2, r3, r4⟩ := v
  obtain ⟨t1, t2, t3, t4⟩ := u1
  have e1 : r.wind = w := r1.trans t1
  have e2 : r.synth = s.synth := r2.trans t2
  have e3 : r.fuseAspd = (s.fuseAspd && !out) := by rw [r3, t3]
  have e4 : r.log = s.log := r4.trans t4
  have tl := air_tail x r T
  have hTd : (!r.synth && x.tasReady && x.inAir) = T := by rw [e2]
  rw [hTd]
  obtain ⟨a, b, c⟩ := tl
  exact ⟨a.trans (by rw [e1]), b.trans (by rw [e3]), c.trans (by rw [e4, e1])⟩

/-- the three air data controls in order -/
def airAll (x : In) (s : St) : St := controlDrag x (controlBeta x (controlAir x s))

/-- `airAll` is what the step performs between GPS and vision control -/
theorem airAll_in_step (x : In) (s : St) : step x s = controlFake x (controlAux x (controlEv x (airAll x
    (controlGps x (controlFlow x (controlMag x (stMag x s))))))) := rfl

/-- **C112.** Wind estimation starts only in the air, not on synthetic position, on an airspeed sample, a due sideslip fusion or drag
fusion being enabled, and with a reset of the wind states. -/
theorem wind_start (x : In) (s : St) (h0 : s.wind = false) (h1 : (airAll x s).wind = true) :
    x.inAir = true ∧ s.synth = false ∧ Act.windReset ∈ (airAll x s).log ∧
    (x.tasReady = true ∨ (x.fuseBeta = true ∧ isTimedOut x.now s.tBeta x.betaAvg = true) ∨ (x.useDrag = true ∧ s.magInhReq = false)) := by
  have ha : (controlAir x s).wind = (!s.synth && x.tasReady && x.inAir) := by
    rw [(controlAir_facts x s).1, h0]; simp
  have hal : (controlAir x s).wind = true → Act.windReset ∈ (controlAir x s).log := by
    intro k
    rw [ha] at k
    rw [(controlAir_facts x s).2.2]
    simp [h0, k]
  have s1 : (controlAir x s).synth = s.synth := by simp
  have s2 : (controlAir x s).tBeta = s.tBeta := by simp
  have s3 : (controlAir x s).magInhReq = s.magInhReq := by simp
  unfold airAll at h1 ⊢
  generalize controlAir x s = a at *
  have hb : (controlBeta x a).wind = (a.wind || (!a.synth && isTimedOut x.now a.tBeta x.betaAvg && x.fuseBeta && x.inAir)) := by
    unfold controlBeta
    dsimp only
    cases h2 : a.synth <;> cases h3 : isTimedOut x.now a.tBeta x.betaAvg <;> cases h5 : x.fuseBeta <;> cases h6 : x.inAir <;>
      cases h4 : a.wind <;> cases h7 : x.betaOk <;> simp [h4]
  have hbl : a.wind = false → (controlBeta x a).wind = true → Act.windReset ∈ (controlBeta x a).log := by
    intro k1 k2
    rw [hb, k1] at k2
    simp only [Bool.false_or, Bool.and_eq_true, Bool.not_eq_true'] at k2
    unfold controlBeta
    rw [if_neg (by simp [k2.1.1.1]), if_pos (show (isTimedOut x.now a.tBeta x.betaAvg && x.fuseBeta && x.inAir) = true by simp [k2.1.1.2, k2.1.2, k2.2]),
      if_pos (show (!a.wind) = true by simp [k1])]
    dsimp only
    split_ifs <;> simp [St.act]
  have s4 : (controlBeta x a).synth = a.synth := by simp
  have s5 : (controlBeta x a).magInhReq = a.magInhReq := by simp
  by_cases wa : a.wind = true
  · have hm := controlDrag_log_mem x _ _ (controlBeta_log_mem x _ _ (hal wa))
    rw [wa] at ha
    have ha' := ha.symm
    simp only [Bool.and_eq_true, Bool.not_eq_true'] at ha'
    exact ⟨ha'.2, ha'.1.1, hm, Or.inl ha'.1.2⟩
  · have wa' : a.wind = false := by simpa using wa
    by_cases wb : (controlBeta x a).wind = true
    · have hm := controlDrag_log_mem x _ _ (hbl wa' wb)
      rw [hb, wa'] at wb
      simp only [Bool.false_or, Bool.and_eq_true, Bool.not_eq_true'] at wb
      exact ⟨wb.2, by rw [← s1]; exact wb.1.1.1, hm, Or.inr (Or.inl ⟨wb.1.2, by rw [← s2]; exact wb.1.1.2⟩)⟩
    · have wb' : (controlBeta x a).wind = false := by simpa using wb
      generalize controlBeta x a = b at *
      unfold controlDrag at h1 ⊢
      by_cases d : (x.useDrag && !b.synth && x.inAir && !b.magInhReq) = true
      · rw [if_pos d, if_pos (by simp [wb'])]
        simp only [Bool.and_eq_true, Bool.not_eq_true'] at d
        exact ⟨d.1.2, by rw [← s1, ← s4]; exact d.1.1.2, by simp [St.act], Or.inr (Or.inr ⟨d.1.1.1, by rw [← s3, ← s5]; exact d.2⟩)⟩
      · rw [if_neg d, wb'] at h1; cases h1

/-- **C112.** Wind estimation stops exactly when it runs on synthetic position or - without drag fusion - neither airspeed nor
sideslip was fused for 10 s, and no source restarts it in the same step. -/
theorem wind_stop (x : In) (s : St) (h0 : s.wind = true) :
    ((controlAir x s).wind = false ↔
      s.synth = true ∨ ((isTimedOut x.now s.tArsp 10000000 = true ∧ isTimedOut x.now s.tBeta 10000000 = true ∧ x.useDrag = false) ∧
        ¬ (x.tasReady = true ∧ x.inAir = true))) := by
  rw [(controlAir_facts x s).1, h0]
  cases h1 : s.synth <;> cases h2 : isTimedOut x.now s.tArsp 10000000 <;> cases h3 : isTimedOut x.now s.tBeta 10000000 <;>
    cases h4 : x.useDrag <;> cases h5 : x.tasReady <;> cases h6 : x.inAir <;> simp

/-- **C112.** Airspeed is fused only in the air and not on synthetic position; the aiding flag is set exactly by an accepted sample
and falls when none was accepted for 10 s. -/
theorem airspeed_flag (x : In) (s : St) :
    ((controlAir x s).fuseAspd = true ↔
      (x.tasReady = true ∧ x.inAir = true ∧ s.synth = false ∧ x.arspOk = true) ∨
      (s.fuseAspd = true ∧ isTimedOut x.now s.tArsp 10000000 = false)) ∧
    (Act.fuseAirspeed ∉ s.log → Act.fuseAirspeed ∈ (controlAir x s).log → x.tasReady = true ∧ x.inAir = true ∧ s.synth = false) := by
  rw [(controlAir_facts x s).2.1, (controlAir_facts x s).2.2]
  constructor
  · cases h1 : s.synth <;> cases h2 : isTimedOut x.now s.tArsp 10000000 <;> cases h5 : x.tasReady <;> cases h6 : x.inAir <;>
      cases h7 : s.fuseAspd <;> cases h8 : x.arspOk <;> simp
  · cases h1 : s.synth <;> cases h5 : x.tasReady <;> cases h6 : x.inAir <;> simp <;> intro a b <;> exact absurd b a

/-- **C112 (finding).** With drag fusion enabled the wind estimate is never stopped by the absence of data. -/
theorem drag_keeps_wind (x : In) (s : St) (h0 : s.wind = true) (hd : x.useDrag = true) (hs : s.synth = false) :
    (airAll x s).wind = true := by
  have h1 : (controlAir x s).wind = true := by
    rw [← Bool.not_eq_false, wind_stop x s h0]
    rw [hs, hd]
    rintro (k | ⟨⟨_, _, k⟩, _⟩) <;> cases k
  unfold airAll
  unfold controlDrag controlBeta
  dsimp only
  generalize controlAir x s = a at h1
  split_ifs <;> simp_all

/-- **C112.** Sideslip is fused at most once per averaging interval, only in the air, when enabled and not on synthetic position. -/
theorem sideslip_conditions (x : In) (s : St) (h0 : Act.fuseBeta ∉ s.log) :
    Act.fuseBeta ∈ (controlBeta x s).log ↔
      s.synth = false ∧ isTimedOut x.now s.tBeta x.betaAvg = true ∧ x.fuseBeta = true ∧ x.inAir = true := by
  unfold controlBeta
  dsimp only
  cases h1 : s.synth <;> cases h2 : isTimedOut x.now s.tBeta x.betaAvg <;> cases h3 : x.fuseBeta <;> cases h4 : x.inAir <;>
    cases h5 : s.wind <;> cases h6 : x.betaOk <;> simp [h0]

/-- **C112.** Drag is fused only when wind estimation was already on; the step that starts it does not fuse. -/
theorem drag_conditions (x : In) (s : St) (h0 : Act.fuseDrag ∉ s.log) :
    Act.fuseDrag ∈ (controlDrag x s).log ↔
      x.useDrag = true ∧ s.synth = false ∧ x.inAir = true ∧ s.magInhReq = false ∧ s.wind = true ∧ x.dragReady = true := by
  unfold controlDrag
  cases h1 : s.synth <;> cases h2 : x.useDrag <;> cases h3 : s.magInhReq <;> cases h4 : x.inAir <;>
    cases h5 : s.wind <;> cases h6 : x.dragReady <;> simp [h0]

/-- **C112.** Auxiliary velocity is fused exactly when a sample arrives while some horizontal aiding is active. -/
theorem aux_conditions (x : In) (s : St) (h0 : Act.fuseVelHor ∉ s.log) :
    Act.fuseVelHor ∈ (controlAux x s).log ↔ x.auxReady = true ∧ (s.aid x).active = true := by
  unfold controlAux fuseVelHor
  cases h1 : x.auxReady <;> cases h2 : (s.aid x).active <;> cases h3 : x.auxOk <;> simp [h0]

/-- Non-vacuity: airspeed starts wind estimation and is fused; 11 s later without data both stop. -/
example : let s := airAll { inAir := true, tasReady := true, arspOk := true, now := 5000000 } {}
    s.wind = true ∧ s.fuseAspd = true ∧ (airAll { inAir := true, now := 16000001 } s).wind = false ∧
    (airAll { inAir := true, now := 16000001 } s).fuseAspd = false ∧ (airAll { inAir := true, useDrag := true, now := 16000001 } s).wind = true := by
  decide +kernel

end Ecl.Aid
