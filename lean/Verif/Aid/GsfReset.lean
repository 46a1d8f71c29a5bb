import Verif.Aid.MagMore

/-!
# Emergency yaw resets (C59)
-/

namespace Ecl.Aid

/-- the step performed a yaw reset to the yaw estimator -/
def DidGsf (t : St) : Prop := Act.yawReset .gsf ∈ t.log

instance (t : St) : Decidable (DidGsf t) := by unfold DidGsf; infer_instance

theorem gsf_mem_iff (l : List Act) : Act.yawReset .gsf ∈ l ↔ 0 < l.countP isGsf := by
  rw [List.countP_pos_iff]
  constructor
  · intro h; exact ⟨_, h, rfl⟩
  · rintro ⟨a, h, k⟩
    have : a = Act.yawReset .gsf := by
      unfold isGsf at k; split at k
      · rfl
      · cases k
    rwa [this] at h

theorem resetYawToGsf_isGsf (x : In) (s : St) :
    (resetYawToGsf x s).1.log.countP isGsf = s.log.countP isGsf + (if (resetYawToGsf x s).2 then 1 else 0) ∧
    (resetYawToGsf x s).2 = x.gsfOk := by
  have h2 : (resetYawToGsf x s).2 = x.gsfOk := by
    unfold resetYawToGsf; cases x.gsfOk <;> rfl
  refine ⟨?_, h2⟩
  rw [h2]
  unfold resetYawToGsf
  cases h : x.gsfOk
  · simp
  · by_cases k : x.magType = 5
    · simp [k, isGsf]
    · simp [k, isGsf]

/-- state in `controlGps` before the two places that use the yaw estimator -/
def gpsBefore (x : In) (s : St) : St := gpsFailing x (gpsStart x (controlGpsYaw x s))

theorem gpsBefore_frame (x : In) (s : St) : (gpsBefore x s).doGsf = s.doGsf ∧ (gpsBefore x s).gsfTime = s.gsfTime ∧
    (gpsBefore x s).gsfCount = s.gsfCount ∧ (gpsBefore x s).log.countP isGsf = s.log.countP isGsf := by
  unfold gpsBefore; simp

/-- effect of `controlGps` on the reset bookkeeping -/
structure GsfStep (x : In) (s r : St) : Prop where
  /-- no reset: time and counter unchanged -/
  none : r.log.countP isGsf = s.log.countP isGsf → r.gsfTime = s.gsfTime ∧ r.gsfCount = s.gsfCount
  /-- at most one reset -/
  one : r.log.countP isGsf = s.log.countP isGsf ∨ r.log.countP isGsf = s.log.countP isGsf + 1
  /-- a reset records its time, is separated from the recorded one, needs a converged estimate and new GPS data -/
  some : r.log.countP isGsf = s.log.countP isGsf + 1 → r.gsfTime = x.now ∧ isTimedOut x.now s.gsfTime 5000000 = true ∧
    x.gsfOk = true ∧ x.gpsReady = true ∧
    (r.gps = false → s.doGsf = true ∧ r.gsfCount = s.gsfCount) ∧
    (r.gps = true → s.gsfCount.toNat < x.countLimit ∧ r.gsfCount = s.gsfCount + 1 ∧ isTimedOut x.now x.tPrevGps 1000000 = false)
  mono : s.gsfCount.toNat ≤ 255

theorem controlGps_gsf (x : In) (s : St) : GsfStep x s (controlGps x s) := by
  have hc255 : s.gsfCount.toNat ≤ 255 := by have := s.gsfCount.toNat_lt; omega
  by_cases hr : x.gpsReady = true
  swap
  · have hlog : (controlGps x s).log.countP isGsf = s.log.countP isGsf ∧ (controlGps x s).gsfTime = s.gsfTime ∧
        (controlGps x s).gsfCount = s.gsfCount := by
      unfold controlGps; rw [if_neg hr]; split_ifs <;> simp
    exact ⟨fun _ => hlog.2, Or.inl hlog.1, fun k => by omega, hc255⟩
  obtain ⟨fd, ft, fc, fl⟩ := gpsBefore_frame x s
  set b := gpsBefore x s with hb
  have hcg : controlGps x s = gpsFuse x (gpsResets x (gsfAlign x b)) := by
    unfold controlGps; rw [if_pos hr]; rfl
  have hfuse : ∀ t : St, (gpsFuse x t).log.countP isGsf = t.log.countP isGsf ∧ (gpsFuse x t).gsfTime = t.gsfTime ∧
      (gpsFuse x t).gsfCount = t.gsfCount ∧ (gpsFuse x t).gps = t.gps := fun t => by simp
  obtain ⟨f1, f2, f3, f4⟩ := hfuse (gpsResets x (gsfAlign x b))
  rw [hcg]
  by_cases hg : b.gps = true
  · -- GPS aiding: counted reset
    have ha : gsfAlign x b = b := by unfold gsfAlign; rw [if_neg (by simp [hg])]
    rw [ha] at f1 f2 f3 f4 ⊢
    obtain ⟨g1, g2⟩ := resetYawToGsf_isGsf x b
    by_cases hn : needGsfReset x b = true
    · have he : gpsResets x b = gsfReset x b := by unfold gpsResets; rw [if_pos hg, if_pos hn]
      rw [he] at f1 f2 f3 f4
      by_cases hok : x.gsfOk = true
      · have hs : gsfReset x b = { (resetYawToGsf x b).1 with
            gsfTime := x.now, doGsf := false, gsfCount := (resetYawToGsf x b).1.gsfCount + 1, tPos := x.now,
            tDelpos := x.now, tVel := x.now, tOf := x.now } := by
          unfold gsfReset; dsimp only; rw [if_pos (by rw [g2]; exact hok)]
        have l1 : (gsfReset x b).log.countP isGsf = s.log.countP isGsf + 1 := by
          rw [hs]; simp only; rw [g1, g2, hok, fl]; rfl
        have l2 : (gsfReset x b).gsfTime = x.now := by rw [hs]
        have l3 : (gsfReset x b).gsfCount = s.gsfCount + 1 := by rw [hs]; simp [fc]
        have l4 : (gsfReset x b).gps = true := by rw [hs]; simp [hg]
        unfold needGsfReset at hn
        simp only [Bool.and_eq_true, decide_eq_true_eq, Bool.not_eq_true'] at hn
        rw [he]
        refine ⟨fun k => by omega, Or.inr (by omega), fun _ => ⟨by rw [f2, l2], by rw [← ft]; exact hn.1.2, hok, hr,
          fun k => (by rw [f4, l4] at k; cases k), fun _ => ⟨by rw [← fc]; exact hn.1.1.2, by rw [f3, l3], hn.2⟩⟩, hc255⟩
      · have hs : gsfReset x b = (resetYawToGsf x b).1 := by
          unfold gsfReset; dsimp only; rw [if_neg (by rw [g2]; exact hok)]
        have l1 : (gsfReset x b).log.countP isGsf = s.log.countP isGsf := by
          rw [hs, g1, g2, if_neg hok, fl]; rfl
        rw [he]
        refine ⟨fun _ => ⟨by rw [f2, hs]; simp [ft], by rw [f3, hs]; simp [fc]⟩, Or.inl (by omega), fun k => by omega, hc255⟩
    · have hlog : (gpsResets x b).log.countP isGsf = s.log.countP isGsf ∧ (gpsResets x b).gsfTime = s.gsfTime ∧
          (gpsResets x b).gsfCount = s.gsfCount := by
        unfold gpsResets; rw [if_pos hg, if_neg hn]; split_ifs <;> simp [fl, ft, fc]
      refine ⟨fun _ => ⟨by rw [f2]; exact hlog.2.1, by rw [f3]; exact hlog.2.2⟩, Or.inl (by omega), fun k => by omega, hc255⟩
  · -- no GPS aiding: alignment
    have hg' : b.gps = false := by simpa using hg
    have hgr : ∀ t : St, t.gps = false → gpsResets x t = t := fun t k => by unfold gpsResets; rw [if_neg (by simp [k])]
    obtain ⟨g1, g2⟩ := resetYawToGsf_isGsf x b
    have hag : (gsfAlign x b).gps = false := by rw [gsfAlign_gps]; exact hg'
    rw [hgr _ hag] at f1 f2 f3 f4 ⊢
    by_cases hn : (!b.gps && b.doGsf && isTimedOut x.now b.gsfTime 5000000) = true
    · have hn' : b.doGsf = true ∧ isTimedOut x.now b.gsfTime 5000000 = true := by
        simp only [Bool.and_eq_true, Bool.not_eq_true'] at hn; exact ⟨hn.1.2, hn.2⟩
      by_cases hok : x.gsfOk = true
      · have hs : gsfAlign x b = { (resetYawToGsf x b).1 with gsfTime := x.now, doGsf := false } := by
          unfold gsfAlign; dsimp only; rw [if_pos hn, if_pos (by rw [g2]; exact hok)]
        have l1 : (gsfAlign x b).log.countP isGsf = s.log.countP isGsf + 1 := by
          rw [hs]; simp only; rw [g1, g2, hok, fl]; rfl
        refine ⟨fun k => by omega, Or.inr (by omega), fun _ => ⟨by rw [f2, hs], by rw [← ft]; exact hn'.2, hok, hr,
          fun _ => ⟨by rw [← fd]; exact hn'.1, by rw [f3]; simp [fc]⟩, fun k => (by rw [f4, hag] at k; cases k)⟩, hc255⟩
      · have hs : gsfAlign x b = (resetYawToGsf x b).1 := by
          unfold gsfAlign; dsimp only; rw [if_pos hn, if_neg (by rw [g2]; exact hok)]
        have l1 : (gsfAlign x b).log.countP isGsf = s.log.countP isGsf := by
          rw [hs, g1, g2, if_neg hok, fl]; rfl
        refine ⟨fun _ => ⟨by rw [f2, hs]; simp [ft], by rw [f3]; simp [fc]⟩, Or.inl (by omega), fun k => by omega, hc255⟩
    · have hs : gsfAlign x b = b := by unfold gsfAlign; rw [if_neg hn]
      refine ⟨fun _ => ⟨by rw [f2, hs, ft], by rw [f3, hs, fc]⟩, Or.inl (by rw [f1, hs, fl]), fun k => by
        rw [f1, hs, fl] at k; omega, hc255⟩

/-- recorded reset time after the requests: cleared when the origin is set without a magnetometer -/
def baseTime (x : In) (s : St) : UInt64 := if x.originSet = true ∧ x.magType = 5 then 0 else s.gsfTime

/-- bookkeeping over a whole step -/
theorem step_gsf (x : In) (s : St) :
    (step x s).log.countP isGsf ≤ 1 ∧
    (¬ DidGsf (step x s) → (step x s).gsfTime = baseTime x s ∧ (step x s).gsfCount = s.gsfCount) ∧
    (DidGsf (step x s) → (step x s).gsfTime = x.now ∧ isTimedOut x.now (baseTime x s) 5000000 = true ∧ x.gsfOk = true ∧
      x.gpsReady = true ∧ ((step x s).gps = false →
        (s.doGsf = true ∨ x.emergencyReq = true ∨ (x.originSet = true ∧ x.magType = 5)) ∧ (step x s).gsfCount = s.gsfCount) ∧
      ((step x s).gps = true → s.gsfCount.toNat < x.countLimit ∧ (step x s).gsfCount = s.gsfCount + 1 ∧
        isTimedOut x.now x.tPrevGps 1000000 = false)) := by
  set e := controlFlow x (controlMag x (stMag x s)) with he
  have hs : step x s = controlFake x (controlAux x (controlEv x (controlDrag x (controlBeta x (controlAir x
      (controlGps x e)))))) := rfl
  have hreq : (requests x { s with log := [], evts := [] }).gsfTime = baseTime x s ∧
      ((requests x { s with log := [], evts := [] }).doGsf = true →
        s.doGsf = true ∨ x.emergencyReq = true ∨ (x.originSet = true ∧ x.magType = 5)) := by
    unfold requests baseTime
    dsimp only
    split_ifs <;> simp_all
  have e1 : e.gsfTime = baseTime x s := by rw [he]; unfold stMag; simpa using hreq.1
  have e2 : e.gsfCount = s.gsfCount := by rw [he]; unfold stMag; simp
  have e3 : e.log.countP isGsf = 0 := by rw [he]; unfold stMag; simp
  have e4 : e.doGsf = true → s.doGsf = true ∨ x.emergencyReq = true ∨ (x.originSet = true ∧ x.magType = 5) := by
    intro k; apply hreq.2; rw [he] at k; unfold stMag at k; simpa using k
  have hg := controlGps_gsf x e
  have r1 : (step x s).log.countP isGsf = (controlGps x e).log.countP isGsf := by rw [hs]; simp
  have r2 : (step x s).gsfTime = (controlGps x e).gsfTime := by rw [hs]; simp
  have r3 : (step x s).gsfCount = (controlGps x e).gsfCount := by rw [hs]; simp
  have r4 : (step x s).gps = (controlGps x e).gps := by rw [hs]; simp
  have hdid : DidGsf (step x s) ↔ 0 < (controlGps x e).log.countP isGsf := by
    unfold DidGsf; rw [gsf_mem_iff, r1]
  have hone := hg.one
  refine ⟨by omega, fun k => ?_, fun k => ?_⟩
  · rw [hdid] at k
    have := hg.none (by omega)
    exact ⟨by rw [r2, this.1, e1], by rw [r3, this.2, e2]⟩
  · rw [hdid] at k
    obtain ⟨a, b, c, d, f, g⟩ := hg.some (by omega)
    refine ⟨by rw [r2, a], by rw [← e1]; exact b, c, d, fun q => ?_, fun q => ?_⟩
    · rw [r4] at q; exact ⟨e4 (f q).1, by rw [r3, (f q).2, e2]⟩
    · rw [r4] at q; exact ⟨by rw [← e2]; exact (g q).1, by rw [r3, (g q).2.1, e2], (g q).2.2⟩

/-! ### The limit -/

/-- number of steps of a history in which the yaw was reset to the yaw estimator while GPS aiding was in use -/
def countedResets (ts : List St) : ℕ := ts.countP (fun t => decide (DidGsf t) && t.gps)

theorem counted_general (L : ℕ) (hL : L ≤ 255) (xs : List In) : ∀ s : St, s.gsfCount.toNat ≤ L → (∀ x ∈ xs, x.countLimit ≤ L) →
    s.gsfCount.toNat + countedResets (trace s xs) ≤ L := by
  induction xs with
  | nil => intro s h _; simpa [countedResets, trace] using h
  | cons x xs ih =>
    intro s h hl
    have hst := step_gsf x s
    have hlx := hl x (by simp)
    have rest : ∀ c, (step x s).gsfCount.toNat ≤ L → (step x s).gsfCount.toNat = s.gsfCount.toNat + c →
        s.gsfCount.toNat + (c + countedResets (trace (step x s) xs)) ≤ L := by
      intro c k1 k2
      have := ih (step x s) k1 (fun y hy => hl y (by simp [hy]))
      omega
    have hcount : countedResets (trace s (x :: xs)) =
        (if (decide (DidGsf (step x s)) && (step x s).gps) = true then 1 else 0) + countedResets (trace (step x s) xs) := by
      show List.countP _ (step x s :: trace (step x s) xs) = _
      rw [List.countP_cons]; unfold countedResets; omega
    rw [hcount]
    by_cases hd : DidGsf (step x s)
    · obtain ⟨_, _, _, _, f, g⟩ := hst.2.2 hd
      cases hg : (step x s).gps
      · simp only [Bool.and_false]
        exact rest 0 (by rw [(f hg).2]; exact h) (by rw [(f hg).2]; rfl)
      · obtain ⟨g1, g2, _⟩ := g hg
        have hinc : (step x s).gsfCount.toNat = s.gsfCount.toNat + 1 := by
          rw [g2, UInt8.toNat_add]
          have : (1 : UInt8).toNat = 1 := rfl
          rw [this]; exact Nat.mod_eq_of_lt (by omega)
        simp only [hd, decide_true, Bool.and_self, if_true]
        exact rest 1 (by omega) hinc
    · have := hst.2.1 hd
      simp only [hd, decide_false, Bool.false_and]
      exact rest 0 (by rw [this.2]; exact h) (by rw [this.2]; rfl)

/-- **C59.** In every history that starts with an unused reset counter, the number of emergency yaw resets performed while GPS
aiding is in use never exceeds the configured limit (of at most 255). -/
theorem resets_limited (s : St) (h0 : s.gsfCount = 0) (L : ℕ) (hL : L ≤ 255) (xs : List In) (hl : ∀ x ∈ xs, x.countLimit ≤ L) :
    ((trace s xs).countP fun t => decide (Act.yawReset .gsf ∈ t.log) && t.gps) ≤ L := by
  have hz : s.gsfCount.toNat = 0 := by rw [h0]; rfl
  have := counted_general L hL xs s (by omega) hl
  unfold countedResets DidGsf at this
  omega

/-- **C59.** No step resets the yaw twice, and a reset only happens with a converged yaw estimate and new GPS data; while GPS
aiding is in use additionally only if the previous GPS sample is at most 1 s old. -/
theorem reset_conditions (x : In) (s : St) :
    (step x s).log.countP (fun a => a = Act.yawReset .gsf) ≤ 1 ∧
    (Act.yawReset .gsf ∈ (step x s).log → x.gsfOk = true ∧ x.gpsReady = true ∧
      ((step x s).gps = true → isTimedOut x.now x.tPrevGps 1000000 = false)) := by
  have h := step_gsf x s
  refine ⟨?_, fun k => ?_⟩
  · have : (fun a : Act => decide (a = Act.yawReset .gsf)) = isGsf := by
      funext a
      cases a with
      | yawReset y => cases y <;> rfl
      | _ => rfl
    rw [this]; exact h.1
  · obtain ⟨_, _, c, d, _, g⟩ := h.2.2 k
    exact ⟨c, d, fun q => (g q).2.2⟩

/-! ### The spacing -/

theorem gsfTime_kept (xs : List In) : ∀ s : St, (∀ x ∈ xs, ¬ (x.originSet = true ∧ x.magType = 5)) →
    (∀ t ∈ trace s xs, ¬ DidGsf t) → (run s xs).gsfTime = s.gsfTime := by
  induction xs with
  | nil => intro s _ _; rfl
  | cons x xs ih =>
    intro s ho hd
    have h1 := (step_gsf x s).2.1 (hd (step x s) (by simp [trace]))
    have h2 := ih (step x s) (fun y hy => ho y (by simp [hy])) (fun t ht => hd t (by simp [trace, ht]))
    show (run (step x s) xs).gsfTime = _
    rw [h2, h1.1]
    unfold baseTime
    rw [if_neg (ho x (by simp))]

/-- **C59.** Two successive emergency yaw resets are more than 5 s apart — with or without GPS aiding — unless the origin is set
in between while the magnetometer type is `NONE`. -/
theorem resets_spaced (s : St) (x1 x2 : In) (xs : List In)
    (h1 : Act.yawReset .gsf ∈ (step x1 s).log)
    (hn : ∀ t ∈ trace (step x1 s) xs, Act.yawReset .gsf ∉ t.log)
    (h2 : Act.yawReset .gsf ∈ (step x2 (run (step x1 s) xs)).log)
    (ho : ∀ x ∈ x2 :: xs, ¬ (x.originSet = true ∧ x.magType = 5))
    (hb : x1.now.toNat + 5000000 < 2 ^ 64) :
    x1.now.toNat + 5000000 < x2.now.toNat := by
  have e1 := ((step_gsf x1 s).2.2 h1).1
  have e2 := gsfTime_kept xs (step x1 s) (fun x hx => ho x (by simp [hx])) hn
  have e3 := ((step_gsf x2 (run (step x1 s) xs)).2.2 h2).2.1
  unfold baseTime at e3
  rw [if_neg (ho x2 (by simp)), e2, e1] at e3
  exact ((timeout_meaning x2.now x1.now 5000000 hb).1).mp e3

/-! ### What is not limited -/

/-- step in which a yaw reset is requested from outside while GPS aiding is not in use -/
def reqAt (t : UInt64) : In := { emergencyReq := true, gpsReady := true, gsfOk := true, now := t, tDel := t, magType := 5 }

/-- the same with GPS aiding, the previous GPS sample being recent; the limit is `L` -/
def reqGpsAt (L : ℕ) (t : UInt64) : In :=
  { emergencyReq := true, gpsReady := true, gsfOk := true, now := t, tDel := t, magType := 5, useGps := true, countLimit := L,
    lastPass := t, tPrevGps := t, tGps := t, gpsPosOk := true, gpsVelOk := true }

theorem req_resets (t : UInt64) (s : St) (hg : s.gps = false) (ht : isTimedOut t s.gsfTime 5000000 = true) :
    DidGsf (step (reqAt t) s) ∧ (step (reqAt t) s).gps = false ∧ (step (reqAt t) s).gsfTime = t := by
  have hg2 : (step (reqAt t) s).gps = false := by
    rw [step_eq]
    unfold stRest
    simp only [controlFake_gps, controlAux_gps, controlEv_gps, controlDrag_gps, controlBeta_gps, controlAir_gps]
    unfold controlGps
    rw [if_pos (show (reqAt t).gpsReady = true from rfl)]
    simp only [gpsFuse_gps, gpsResets_gps, gsfAlign_gps]
    unfold gpsFailing
    have : (gpsStart (reqAt t) (controlGpsYaw (reqAt t) (controlFlow (reqAt t) (controlMag (reqAt t) (stMag (reqAt t) s))))).gps
        = false := by
      unfold gpsStart
      rw [if_neg (by simp [reqAt]), if_pos (by simp [reqAt])]
    rw [if_neg (by simp [this])]
    exact this
  by_contra hcon
  by_cases hd : DidGsf (step (reqAt t) s)
  · exact hcon ⟨hd, hg2, ((step_gsf (reqAt t) s).2.2 hd).1⟩
  · apply hd
    unfold DidGsf
    rw [gsf_mem_iff]
    set e := controlFlow (reqAt t) (controlMag (reqAt t) (stMag (reqAt t) s)) with he
    have hs : step (reqAt t) s = controlFake (reqAt t) (controlAux (reqAt t) (controlEv (reqAt t) (controlDrag (reqAt t)
        (controlBeta (reqAt t) (controlAir (reqAt t) (controlGps (reqAt t) e)))))) := rfl
    have hreq : (requests (reqAt t) { s with log := [], evts := [] }).gsfTime = s.gsfTime ∧
      (requests (reqAt t) { s with log := [], evts := [] }).doGsf = true := ⟨rfl, rfl⟩
    have e1 : e.gsfTime = s.gsfTime := by rw [he]; unfold stMag; simpa using hreq.1
    have e2 : e.doGsf = true := by rw [he]; unfold stMag; simpa using hreq.2
    have r1 : (step (reqAt t) s).log.countP isGsf = (controlGps (reqAt t) e).log.countP isGsf := by rw [hs]; simp
    rw [r1]
    unfold controlGps
    rw [if_pos (show (reqAt t).gpsReady = true from rfl), gpsFuse_isGsf]
    set b := gpsFailing (reqAt t) (gpsStart (reqAt t) (controlGpsYaw (reqAt t) e)) with hb
    have b1 : b.gps = false := by
      have : (gpsStart (reqAt t) (controlGpsYaw (reqAt t) e)).gps = false := by
        unfold gpsStart; rw [if_neg (by simp [reqAt]), if_pos (by simp [reqAt])]
      rw [hb]; unfold gpsFailing; rw [if_neg (by simp [this])]; exact this
    have b2 : b.doGsf = true ∧ b.gsfTime = s.gsfTime := by rw [hb]; simp [e1, e2]
    have hal : gsfAlign (reqAt t) b = { (resetYawToGsf (reqAt t) b).1 with gsfTime := t, doGsf := false } := by
      unfold gsfAlign; dsimp only
      rw [if_pos (by simp only [b1, b2, Bool.not_false, Bool.true_and]; exact ht), if_pos (by
        rw [(resetYawToGsf_isGsf (reqAt t) b).2]; rfl)]
      rfl
    have hgr : gpsResets (reqAt t) (gsfAlign (reqAt t) b) = gsfAlign (reqAt t) b := by
      unfold gpsResets; rw [if_neg (by simp [b1])]
    rw [hgr, hal]
    simp only
    rw [(resetYawToGsf_isGsf (reqAt t) b).1, (resetYawToGsf_isGsf (reqAt t) b).2]
    show 0 < _ + 1
    omega

/-- times 6 s apart -/
def at6 (k : ℕ) : UInt64 := UInt64.ofNat (6000000 * (k + 1))

theorem at6_toNat (k : ℕ) (h : 6000000 * (k + 1) < 2 ^ 64) : (at6 k).toNat = 6000000 * (k + 1) := by
  unfold at6; rw [UInt64.toNat_ofNat']; exact Nat.mod_eq_of_lt h

theorem unlimited_aux (n : ℕ) : ∀ (k : ℕ) (s : St), 6000000 * (k + n + 1) < 2 ^ 64 → s.gps = false →
    s.gsfTime.toNat ≤ 6000000 * k →
    (trace s ((List.range n).map fun i => reqAt (at6 (k + i)))).countP (fun t => decide (DidGsf t) && !t.gps) = n := by
  induction n with
  | zero => intro k s _ _ _; rfl
  | succ n ih =>
    intro k s hb hg ht
    have hl : (List.range (n + 1)).map (fun i => reqAt (at6 (k + i))) =
        reqAt (at6 k) :: (List.range n).map (fun i => reqAt (at6 (k + 1 + i))) := by
      rw [List.range_succ_eq_map, List.map_cons, List.map_map]
      have : ((fun i => reqAt (at6 (k + i))) ∘ Nat.succ) = fun i => reqAt (at6 (k + 1 + i)) := by
        funext i
        have e : k + Nat.succ i = k + 1 + i := by omega
        simp only [Function.comp, e]
      rw [this, Nat.add_zero]
    rw [hl]
    have hk := at6_toNat k (by omega)
    have hto : isTimedOut (at6 k) s.gsfTime 5000000 = true := by
      have h5 : (5000000 : UInt64).toNat = 5000000 := rfl
      rw [(timeout_meaning (at6 k) s.gsfTime 5000000 (by rw [h5]; omega)).1, hk, h5]; omega
    obtain ⟨a, b, c⟩ := req_resets (at6 k) s hg hto
    show List.countP _ (step (reqAt (at6 k)) s :: trace _ _) = _
    rw [List.countP_cons, ih (k + 1) _ (by omega) b (by rw [c, hk])]
    simp [a, b]

/-- **C59 (finding).** Without GPS aiding the number of emergency yaw resets is not limited: there are histories with any
number of them (as many as fit into the 64-bit clock at one per 6 s), the counter staying at zero. -/
theorem uncounted_unlimited (n : ℕ) (h : 6000000 * (n + 1) < 2 ^ 64) : ∃ xs : List In, xs.length = n ∧
    (∀ x ∈ xs, x.countLimit = 3) ∧ ((trace {} xs).countP fun t => decide (Act.yawReset .gsf ∈ t.log)) = n := by
  refine ⟨(List.range n).map fun i => reqAt (at6 (0 + i)), by simp, ?_, ?_⟩
  · intro x hx; obtain ⟨i, _, rfl⟩ := List.mem_map.mp hx; rfl
  · have h1 := unlimited_aux n 0 {} (by simpa using h) rfl (by simp)
    have h2 : ((trace {} ((List.range n).map fun i => reqAt (at6 (0 + i)))).countP fun t => decide (DidGsf t) && !t.gps) ≤
        (trace {} ((List.range n).map fun i => reqAt (at6 (0 + i)))).countP fun t => decide (DidGsf t) :=
      List.countP_mono_left (fun t _ h => by simp only [Bool.and_eq_true] at h; exact h.1)
    have h3 : (trace {} ((List.range n).map fun i => reqAt (at6 (0 + i)))).length = n := by
      have : ∀ (l : List In) (s : St), (trace s l).length = l.length := by
        intro l; induction l with
        | nil => intro s; rfl
        | cons a l ih => intro s; simp [trace, ih]
      rw [this]; simp
    have h4 := List.countP_le_length (p := fun t : St => decide (DidGsf t))
      (l := trace {} ((List.range n).map fun i => reqAt (at6 (0 + i))))
    unfold DidGsf at *
    omega

/-- **C59 (finding).** The counter has 8 bits: with a configured limit above 255 it never blocks a reset. -/
theorem limit_above_255_ignored (x : In) (s : St) (h : 256 ≤ x.countLimit) (c : UInt8) :
    needGsfReset x s = needGsfReset x { s with gsfCount := c } := by
  have h1 := s.gsfCount.toNat_lt
  have h2 := c.toNat_lt
  have e1 : decide (s.gsfCount.toNat < x.countLimit) = true := decide_eq_true (by omega)
  have e2 : decide (c.toNat < x.countLimit) = true := decide_eq_true (by omega)
  unfold needGsfReset
  simp only [e1, e2]
  rfl

/-- **C59 (finding).** Setting the origin without a magnetometer clears the time of the last reset: two resets 1 s apart. -/
theorem origin_breaks_spacing : ∃ x1 x2 : In, let a := step x1 {}
    Act.yawReset .gsf ∈ a.log ∧ Act.yawReset .gsf ∈ (step x2 a).log ∧ x2.now = x1.now + 1000000 ∧ x2.originSet = true :=
  ⟨reqAt 6000000, { reqAt 7000000 with originSet := true }, by decide +kernel⟩

/-- Non-vacuity: with GPS aiding and a limit of 3, four requests at 6 s intervals lead to three resets. -/
example : ((trace { gps := true, yawAlign := true, tilt := true }
    ([6000000, 12000000, 18000000, 24000000].map (reqGpsAt 3))).map fun t => decide (DidGsf t) && t.gps) =
    [true, true, true, false] := by decide +kernel

end Ecl.Aid
