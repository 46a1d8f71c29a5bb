import Verif.Aid.Lockout

/-!
# Property C153 — rejected vision positions and optical flow lead to resets; losing the terrain estimate freezes the position

EKF/control.cpp:287-296 (vision), :458-478 (flow).
-/

namespace Ecl.Aid

/-- everything before the vision step, GPS not in use -/
theorem before_ev (x : In) (s : St) :
    let d := controlDrag x (controlBeta x (controlAir x (controlGps x (controlFlow x (controlMag x (stMag x s))))))
    step x s = controlFake x (controlAux x (controlEv x d)) ∧ d.evPos = s.evPos ∧ d.gps = (step x s).gps := by
  intro d
  refine ⟨step_tail x s, ?_, ?_⟩
  · show (controlDrag x (controlBeta x (controlAir x (controlGps x (controlFlow x (controlMag x (stMag x s))))))).evPos = _
    unfold stMag; simp
  · rw [step_tail x s]
    simp [d]

theorem evPosUse_recovers (x : In) (t : St) (he : t.evPos = true) (hu : x.useGps = false) (hg : t.gps = false)
    (ht : isTimedOut x.now t.tPos x.resetTimeout = true) : Act.posReset .vision ∈ (evPosUse x t).log := by
  unfold evPosUse
  rw [if_pos he]
  dsimp only
  rw [if_neg (by simp [hu]), if_pos ht]
  have h1 : ∀ u : St, u.gps = false → u.evPos = true → Act.posReset .vision ∈ (fusePos x .visionAbs x.evPosOk (resetPos x u)).log := by
    intro u a b
    have : Act.posReset .vision ∈ (resetPos x u).log := by
      unfold resetPos
      have : posSrc x u = .vision := by unfold posSrc; rw [if_neg (by simp [a]), if_pos b]
      rw [this]; exact mem_act _ _
    generalize resetPos x u = w at *
    unfold fusePos
    have m := List.mem_append_left [Act.fusePos .visionAbs] this
    split_ifs with c1
    · dsimp only
      split_ifs <;> exact m
    · exact m
  apply h1
  · split_ifs <;> simp [hg]
  · split_ifs <;> simp [he]

/-- **C153 (vision, one step).** A vision sample arrives, vision position is in use, GPS is neither configured nor in use: if no horizontal position has been
accepted for more than the reset timeout, the horizontal position is reset to vision in this step. -/
theorem vision_recovers (x : In) (s : St) (hr : x.evReady = true) (he : s.evPos = true) (hu : x.useGps = false) (hg : (step x s).gps = false)
    (ht : isTimedOut x.now s.tPos x.resetTimeout = true) : Act.posReset .vision ∈ (step x s).log ∨ Spec.PositionTaken x s := by
  obtain ⟨h1, h2, h3⟩ := before_ev x s
  by_cases h : (step x s).tPos = s.tPos
  · left
    rw [h1]
    apply controlFake_log_mem
    apply controlAux_log_mem
    have hd : (controlDrag x (controlBeta x (controlAir x (controlGps x (controlFlow x (controlMag x (stMag x s))))))).tPos = s.tPos := by
      by_contra hne
      have e1 : (controlDrag x (controlBeta x (controlAir x (controlGps x (controlFlow x (controlMag x (stMag x s))))))).tPos =
          (controlGps x (controlFlow x (controlMag x (stMag x s)))).tPos := by simp
      rw [e1] at hne
      have hk : (controlGps x (controlFlow x (controlMag x (stMag x s)))).tPos = x.now := by
        rcases controlGps_tpos x (controlFlow x (controlMag x (stMag x s))) with k | ⟨k, -⟩
        · exact absurd (k.trans (before_gps x s).1) hne
        · exact k
      have hfin : (step x s).tPos = x.now := by
        rw [h1]
        rcases controlFake_tpos x (controlAux x (controlEv x (controlDrag x (controlBeta x (controlAir x (controlGps x (controlFlow x (controlMag x (stMag x s))))))))) with f | ⟨-, -, f⟩
        · rw [f]
          have e2 : ∀ d : St, (controlAux x (controlEv x d)).tPos = (controlEv x d).tPos := fun d => by simp
          rw [e2]
          rcases controlEv_tpos x (controlDrag x (controlBeta x (controlAir x (controlGps x (controlFlow x (controlMag x (stMag x s))))))) with g | ⟨-, -, g⟩
          · rw [g, e1, hk]
          · exact g
        · exact f
      exact hne (by rw [hk, ← hfin, h])
    rw [← h3] at hg
    rw [← h2] at he
    generalize controlDrag x (controlBeta x (controlAir x (controlGps x (controlFlow x (controlMag x (stMag x s)))))) = d at *
    unfold controlEv
    rw [if_pos hr]
    dsimp only
    have e1 : (evYawStart x (evStart x d)).evPos = true := by
      have : (evYawStart x (evStart x d)).evPos = (evStart x d).evPos := by simp
      rw [this]
      unfold evStart
      split_ifs <;> simp [he, resetPos, resetVel, St.act, St.evt] <;> split_ifs <;> simp [he]
    have e2 : (evYawStart x (evStart x d)).gps = false := by simpa using hg
    have e3 : (evYawStart x (evStart x d)).tPos = s.tPos := by rw [← hd]; simp
    have key := evPosUse_recovers x (evYawStart x (evStart x d)) e1 hu e2 (by rw [e3]; exact ht)
    have m := evVelUse_log_mem x _ _ key
    split_ifs
    · exact List.mem_append_left _ m
    · exact m
  · exact Or.inr (position_time_changes x s h).2

/-- **C153 (vision).** For every history: when a vision sample arrives, vision position is in use, GPS is neither configured nor in use, and more than the reset
timeout has passed since the last position known at the start of the history, then a position was taken somewhere in between or in this step, or the position is
reset to vision in this step. -/
theorem vision_lockout_bounded (xs : List In) (x : In) (s : St) (hr : x.evReady = true) (he : (run s xs).evPos = true) (hu : x.useGps = false)
    (hg : (step x (run s xs)).gps = false) (ht : isTimedOut x.now s.tPos x.resetTimeout = true) :
    (∃ (pre : List In) (y : In) (post : List In), xs ++ [x] = pre ++ y :: post ∧ Spec.PositionTaken y (run s pre)) ∨
      Act.posReset .vision ∈ (step x (run s xs)).log := by
  induction xs generalizing s with
  | nil =>
    rcases vision_recovers x s hr he hu hg ht with h | h
    · exact Or.inr h
    · exact Or.inl ⟨[], x, [], rfl, h⟩
  | cons y ys ih =>
    by_cases h : (step y s).tPos = s.tPos
    · have := ih (step y s) he hg (by rw [h]; exact ht)
      rcases this with ⟨pre, z, post, e, hz⟩ | h'
      · exact Or.inl ⟨y :: pre, z, post, by rw [List.cons_append, e]; rfl, hz⟩
      · exact Or.inr h'
    · exact Or.inl ⟨[], y, ys ++ [x], rfl, (position_time_changes y s h).2⟩

/-! ### Optical flow -/

/-- flight on optical flow alone; `o` is the time of the last accepted flow -/
structure Spec.FlowOnly (o : UInt64) (s : St) : Prop where
  flow : s.optFlow = true
  tilt : s.tilt = true
  gps : s.gps = false
  evPos : s.evPos = false
  evVel : s.evVel = false
  tOf : s.tOf = o

/-- a good flow sample in flight, nothing else arrives; no accepted flow for more than the reset timeout -/
structure Spec.FlowSample (o : UInt64) (x : In) : Prop where
  useOf : x.useOf = true
  inAir : x.inAir = true
  pop : x.flowPop = true
  good : x.flowGood = true
  comp : x.flowComp = true
  noGps : x.gpsReady = false
  noEv : x.evReady = false
  noBeta : x.fuseBeta = false
  late : isTimedOut x.now o x.resetTimeout = true

theorem flow_alone (x : In) {o : UInt64} (s : St) (h : Spec.FlowOnly o s) (hb : x.fuseBeta = false) : (s.aid x).isOther s.optFlow = false := by
  unfold St.aid Interface.AidFlags.isOther Interface.AidFlags.count
  simp [h.flow, h.gps, h.evPos, h.evVel, hb]

theorem flowOnly_stMag (x : In) {o : UInt64} (s : St) (h : Spec.FlowOnly o s) (hx : Spec.FlowSample o x) :
    Spec.FlowOnly o (controlMag x (stMag x s)) ∧ (controlMag x (stMag x s)).flowReady = true := by
  have hf : Spec.FlowOnly o (stMag x s) := by
    unfold stMag
    refine ⟨by simpa using h.1, ?_, by simpa using h.3, by simpa using h.4, by simpa using h.5, by simpa using h.6⟩
    have : ∀ t : St, t.tilt = true → tiltAlign x t = t := by
      intro t h; unfold tiltAlign; rw [if_neg (by simp [h])]
    have e : (flowArrival x (tiltAlign x (requests x { s with log := [], evts := [] }))).tilt = (tiltAlign x (requests x { s with log := [], evts := [] })).tilt := by
      simp
    rw [e, this _ (by simpa using h.2)]
    simpa using h.2
  have hr : (stMag x s).flowReady = true := by
    have ho := hf.1
    unfold stMag at ho ⊢
    unfold flowArrival at ho ⊢
    split_ifs at ho ⊢ with hc
    · exact hx.pop
    · simp only [Bool.or_eq_true, Bool.not_eq_true', not_or, Bool.not_eq_false] at hc
      exact hc.1
  refine ⟨⟨by simpa using hf.1, by simpa using hf.2, by simpa using hf.3, by simpa using hf.4, by simpa using hf.5, by simpa using hf.6⟩, ?_⟩
  simpa using hr

theorem flowOnly_flow (x : In) {o : UInt64} (s : St) (h : Spec.FlowOnly o s) (hx : Spec.FlowSample o x) (hr : s.flowReady = true)
    (hn : isRecent x.now x.tHagl 10000000 = false ∨ x.flowOk = false) :
    Spec.FlowOnly o (controlFlow x s) ∧ Act.velReset .flow ∈ (controlFlow x s).log ∧ Act.posReset .lastKnownExact ∈ (controlFlow x s).log := by
  have hq0 : Spec.FlowOnly o (flowQuality x (flowMotion x s)) :=
    ⟨by simpa using h.1, by simpa using h.2, by simpa using h.3, by simpa using h.4, by simpa using h.5, by simpa using h.6⟩
  have hqr : (flowQuality x (flowMotion x s)).flowReady = true := by
    have hm : (flowMotion x s).flowReady = true := by unfold flowMotion; split_ifs <;> exact hr
    unfold flowQuality
    rw [if_pos hm, if_pos (by simp [hx.good, hx.comp])]
    exact hm
  unfold controlFlow
  dsimp only
  generalize flowQuality x (flowMotion x s) = q at *
  rw [if_pos hqr]
  have hinh : flowInhibit x q = false := by
    unfold flowInhibit flowRequired Interface.AidFlags.isOnly
    have := flow_alone x q hq0 hx.noBeta
    rw [hq0.flow] at this
    simp [hx.inAir, this, hq0.flow, hq0.tilt]
  have hq : Spec.FlowOnly o { q with flowInh := flowInhibit x q } := ⟨hq0.1, hq0.2, hq0.3, hq0.4, hq0.5, hq0.6⟩
  have hi : ({ q with flowInh := flowInhibit x q } : St).flowInh = false := hinh
  rw [if_neg (by simp [hx.useOf, hinh])]
  generalize ({ q with flowInh := flowInhibit x q } : St) = r at *
  have e1 : flowStart x r = r := by unfold flowStart; rw [if_neg (by simp [hq.flow])]
  rw [e1]
  unfold flowUse
  rw [if_pos hq.flow]
  dsimp only
  -- the state after the attempt to fuse
  have key : ∀ t : St, Spec.FlowOnly o t →
      Spec.FlowOnly o (if (isTimedOut x.now t.tOf x.resetTimeout && !(t.aid x).isOther t.optFlow) = true then resetPos x (resetVel x t) else t) ∧
      Act.velReset .flow ∈ (if (isTimedOut x.now t.tOf x.resetTimeout && !(t.aid x).isOther t.optFlow) = true then resetPos x (resetVel x t) else t).log ∧
      Act.posReset .lastKnownExact ∈ (if (isTimedOut x.now t.tOf x.resetTimeout && !(t.aid x).isOther t.optFlow) = true then resetPos x (resetVel x t) else t).log := by
    intro t ht
    rw [if_pos (by rw [flow_alone x t ht hx.noBeta, ht.tOf, hx.late]; rfl)]
    have v : velSrc x t = .flow := by unfold velSrc; simp [ht.gps, ht.flow]
    have p : posSrc x (resetVel x t) = .lastKnownExact := by
      unfold posSrc; simp [ht.gps, ht.evPos, ht.flow, hx.inAir]
    refine ⟨⟨by simpa using ht.1, by simpa using ht.2, by simpa using ht.3, by simpa using ht.4, by simpa using ht.5, by simpa using ht.6⟩, ?_, ?_⟩
    · unfold resetPos
      simp only [St.act]
      refine List.mem_append_left _ ?_
      unfold resetVel; rw [v]; exact mem_act _ _
    · unfold resetPos; rw [p]; exact mem_act _ _
  apply key
  have act : ∀ (t : St) (a : Act), Spec.FlowOnly o t → Spec.FlowOnly o (t.act a) := fun t a ht => ⟨ht.1, ht.2, ht.3, ht.4, ht.5, ht.6⟩
  split_ifs with c1 c2 c3
  · exfalso
    rcases hn with hn | hn
    · simp [hn] at c2
    · simp [hn] at c3
  · have := act r .fuseFlow hq
    exact ⟨this.1, this.2, this.3, this.4, this.5, this.6⟩
  · exact ⟨hq.1, hq.2, hq.3, hq.4, hq.5, hq.6⟩
  · exact hq

/-- **C153 (flow, one step).** Flight on optical flow alone; a good sample arrives, but it is not accepted or the terrain estimate is older than ten seconds, and
no flow has been accepted for more than the reset timeout: the velocity is reset to the flow and the position to the last known one; the situation is the same
afterwards. -/
theorem flow_resets (x : In) (o : UInt64) (s : St) (h : Spec.FlowOnly o s) (hx : Spec.FlowSample o x)
    (hn : isRecent x.now x.tHagl 10000000 = false ∨ x.flowOk = false) :
    Spec.FlowOnly o (step x s) ∧ Act.velReset .flow ∈ (step x s).log ∧ Act.posReset .lastKnownExact ∈ (step x s).log := by
  obtain ⟨h1, h2⟩ := flowOnly_stMag x s h hx
  obtain ⟨f1, f2, f3⟩ := flowOnly_flow x _ h1 hx h2 hn
  rw [step_tail]
  generalize controlFlow x (controlMag x (stMag x s)) = m at *
  have mem : ∀ k, k ∈ m.log → k ∈ (controlFake x (controlAux x (controlEv x (controlDrag x (controlBeta x (controlAir x (controlGps x m))))))).log := fun k hk =>
    controlFake_log_mem _ _ _ (controlAux_log_mem _ _ _ (controlEv_log_mem _ _ _ (controlDrag_log_mem _ _ _ (controlBeta_log_mem _ _ _
      (controlAir_log_mem _ _ _ (controlGps_log_mem _ _ _ hk))))))
  refine ⟨?_, mem _ f2, mem _ f3⟩
  have hg : controlGps x m = m := by
    unfold controlGps
    rw [if_neg (by simp [hx.noGps])]
    simp [f1.gps]
  rw [hg]
  have hev : ∀ d : St, d.evPos = false → d.evVel = false → (controlEv x d).evPos = false ∧ (controlEv x d).evVel = false := by
    intro d a b
    unfold controlEv
    rw [if_neg (by simp [hx.noEv])]
    split_ifs
    · exact ⟨rfl, rfl⟩
    · exact ⟨a, b⟩
  have e := hev (controlDrag x (controlBeta x (controlAir x m))) (by simpa using f1.evPos) (by simpa using f1.evVel)
  exact ⟨by simpa using f1.flow, by simpa using f1.tilt, by simpa using f1.gps, by simpa using e.1, by simpa using e.2, by simpa using f1.tOf⟩

/-- **C153 (finding: flow without terrain).** Flight on optical flow alone with the terrain estimate lost: for any number of good flow samples, every one of them
resets the velocity and puts the position back to the last known one. -/
theorem flow_reset_storm (o : UInt64) (xs : List In) (s : St) (h : Spec.FlowOnly o s)
    (hx : ∀ x ∈ xs, Spec.FlowSample o x ∧ isRecent x.now x.tHagl 10000000 = false) (pre : List In) (x : In) (post : List In) (e : xs = pre ++ x :: post) :
    Act.velReset .flow ∈ (step x (run s pre)).log ∧ Act.posReset .lastKnownExact ∈ (step x (run s pre)).log := by
  subst e
  have hp : Spec.FlowOnly o (run s pre) := by
    induction pre generalizing s with
    | nil => exact h
    | cons y ys ih =>
      have hy := hx y (by simp)
      refine ih (step y s) (flow_resets y o s h hy.1 (Or.inl hy.2)).1 ?_
      intro z hz
      apply hx
      simp only [List.cons_append, List.mem_cons, List.mem_append] at hz ⊢
      tauto
  have hy := hx x (by simp)
  exact (flow_resets x o (run s pre) hp hy.1 (Or.inl hy.2)).2

/-! ### Histories from power-on -/

/-- vision position only, accepted or not -/
def evSample (ok : Bool) (t : UInt64) : In :=
  { tiltConverged := true, magReady := true, useEvPos := true, evReady := true, tEv := t, now := t, tDel := t, evPosOk := ok }

/-- the hypotheses of `vision_lockout_bounded` hold: three accepted samples, then rejected ones for more than the reset timeout: the next one resets, and no
position was taken in between -/
example : let s := run {} [evSample true 6000000, evSample true 6100000, evSample true 6200000]
    let xs := [evSample false 9000000, evSample false 12000000]
    let x := evSample false 14000000
    s.tPos = 6200000 ∧ (run s xs).evPos = true ∧ x.useGps = false ∧ (step x (run s xs)).gps = false ∧ isTimedOut x.now s.tPos x.resetTimeout = true ∧
    (step x (run s xs)).tPos = s.tPos ∧ Act.posReset .vision ∈ (step x (run s xs)).log ∧ Act.posReset .vision ∉ (step (evSample false 12000000) s).log := by
  decide +kernel

/-- a good optical flow sample at `t`, terrain last estimated at `h` -/
def flowSample (air : Bool) (h t : UInt64) : In :=
  { tiltConverged := true, magReady := true, useOf := true, flowPop := true, flowGood := true, flowComp := true, flowMid := true, flowOk := true,
    terrainValid := true, inAir := air, tHagl := h, tFlow := t, now := t, tDel := t }

/-- flow aiding starts on ground, the vehicle takes off, flow is accepted until 8 s -/
def flowPrefix : List In := [flowSample false 6000000 6000000, flowSample false 7000000 7000000, flowSample true 8000000 8000000]

theorem flow_reached : Spec.FlowOnly 8000000 (run {} flowPrefix) := by
  constructor <;> decide +kernel

/-- sample `k`, 10 Hz from 20 s on, the terrain never estimated again -/
def lostSample (k : ℕ) : In := { flowSample true 8000000 (UInt64.ofNat (20000000 + 100000 * k)) with terrainValid := false }

/-- from power-on, for any number of good flow samples (300 years' worth) after the terrain estimate was lost: every one resets velocity and position -/
theorem flow_storm_reachable (n : ℕ) (hn : n ≤ 100000000000) (pre : List In) (x : In) (post : List In) (e : (List.range n).map lostSample = pre ++ x :: post) :
    Act.velReset .flow ∈ (step x (run (run {} flowPrefix) pre)).log ∧ Act.posReset .lastKnownExact ∈ (step x (run (run {} flowPrefix) pre)).log := by
  refine flow_reset_storm 8000000 _ _ flow_reached (fun y hy => ?_) pre x post e
  obtain ⟨k, hk, rfl⟩ := List.mem_map.1 hy
  have hk' := List.mem_range.1 hk
  have e0 : (lostSample k).now.toNat = 20000000 + 100000 * k := by
    show (UInt64.ofNat (20000000 + 100000 * k)).toNat = _
    rw [UInt64.toNat_ofNat']
    apply Nat.mod_eq_of_lt
    omega
  have late : ∀ d : UInt64, d.toNat ≤ 10000000 → isTimedOut (lostSample k).now 8000000 d = true := by
    intro d hd
    rw [isTimedOut_iff, UInt64.lt_iff_toNat_lt, e0, UInt64.toNat_add]
    have : (8000000 : UInt64).toNat = 8000000 := by decide +kernel
    rw [this, Nat.mod_eq_of_lt (by omega)]
    omega
  refine ⟨⟨rfl, rfl, rfl, rfl, rfl, rfl, rfl, rfl, late 7000000 (by decide +kernel)⟩, ?_⟩
  have := late 10000000 (by decide +kernel)
  rw [isTimedOut_iff] at this
  rw [← Bool.not_eq_true, isRecent_iff]
  exact fun h => absurd (UInt64.lt_iff_toNat_lt.1 h) (Nat.not_lt.2 (Nat.le_of_lt (UInt64.lt_iff_toNat_lt.1 this)))

/-- with the terrain estimate back, the first accepted sample ends it: the time of the last accepted flow moves and the next sample resets nothing -/
example : let s := run (run {} flowPrefix) ((List.range 5).map lostSample)
    let t := step (flowSample true 21000000 21000000) s
    t.tOf = 21000000 ∧ Act.posReset .lastKnownExact ∉ (step (flowSample true 21100000 21100000) t).log := by
  decide +kernel

end Ecl.Aid
