import Verif.Control.Height
import Mathlib.Tactic.SplitIfs

/-!
# Height source control: theorems (C19, C20, C92-C95)
-/

namespace Ecl.Control

open Ecl.Cov

theorem resetHeight_frame (x : HIn) (s : HSt) : (resetHeight x s).fl = s.fl ∧ (resetHeight x s).tHgt = s.tHgt ∧
    (resetHeight x s).baroFaulty = s.baroFaulty ∧ (resetHeight x s).offset = s.offset ∧ (resetHeight x s).gndEffect = s.gndEffect ∧
    (resetHeight x s).warn = s.warn := by
  unfold resetHeight
  simp only []
  split_ifs <;> exact ⟨rfl, rfl, rfl, rfl, rfl, rfl⟩

theorem resetHeight_fl (x : HIn) (s : HSt) : (resetHeight x s).fl = s.fl := (resetHeight_frame x s).1

theorem startGps_fl (x : HIn) (s : HSt) : (startGps x s).fl = ⟨false, true, false, false⟩ := by
  unfold startGps HFlags.setGps; simp only []; split <;> rfl

theorem startBaro_fl (x : HIn) (s : HSt) : (startBaro x s).fl = ⟨true, false, false, false⟩ := rfl

theorem updateBaroOffset_fl (x : HIn) (s : HSt) : (updateBaroOffset x s).fl = s.fl := by
  unfold updateBaroOffset; split <;> rfl

theorem controlHeight_st (x : HIn) (s : HSt) : (controlHeight x s).1 = updateBaroOffset x (selectHeight x s).1 := by
  unfold controlHeight; simp only []; split <;> rfl

theorem controlHeight_fl (x : HIn) (s : HSt) : (controlHeight x s).1.fl = (selectHeight x s).1.fl := by
  rw [controlHeight_st, updateBaroOffset_fl]

/-- the flags after a step are the old ones or one of the four single-source patterns -/
def OneOf (old f : HFlags) : Prop := f = old ∨ ∃ src, Spec.only f src

set_option maxHeartbeats 2000000 in
theorem selectHeight_one (x : HIn) (s : HSt) : OneOf s.fl (selectHeight x s).1.fl := by
  have hb : OneOf s.fl ⟨true, false, false, false⟩ := Or.inr ⟨.baro, rfl⟩
  have hg : OneOf s.fl ⟨false, true, false, false⟩ := Or.inr ⟨.gps, rfl⟩
  have hr : OneOf s.fl ⟨false, false, true, false⟩ := Or.inr ⟨.rng, rfl⟩
  have he : OneOf s.fl ⟨false, false, false, true⟩ := Or.inr ⟨.ev, rfl⟩
  have hs : OneOf s.fl s.fl := Or.inl rfl
  unfold selectHeight
  simp only []
  split_ifs <;>
    first
      | with_reducible exact hs
      | (simp only [HFlags.setRange, HFlags.setEv, startGps_fl, startBaro_fl, resetHeight_fl]
         first | with_reducible exact hb | with_reducible exact hg | with_reducible exact hr | with_reducible exact he)

theorem heightTimeouts_one (x : HIn) (s : HSt) : OneOf s.fl (heightTimeouts x s).1.fl := by
  have hb : OneOf s.fl ⟨true, false, false, false⟩ := Or.inr ⟨.baro, rfl⟩
  have hg : OneOf s.fl ⟨false, true, false, false⟩ := Or.inr ⟨.gps, rfl⟩
  have hs : OneOf s.fl s.fl := Or.inl rfl
  unfold heightTimeouts
  simp only []
  split_ifs <;>
    first
      | exact hs
      | exact hb
      | (simp only [resetHeight_fl]; exact hs)
      | (simp only [resetHeight_fl, startGps_fl]; exact hg)
      | (simp only [resetHeight_fl, startBaro_fl]; exact hb)
      | (simp only [startGps_fl]; exact hg)
      | contradiction
      | (exfalso; simp_all; done)

theorem only_sources {f : HFlags} {src : HSrc} (h : Spec.only f src) : Spec.sources f = 1 := by
  cases src <;> (unfold Spec.only at h; subst h; rfl)

/-- **C19.** Whatever the sequence of height control decisions, failures, recoveries and GPS stops, starting from any state
with at most one height source there is never more than one. -/
theorem at_most_one_source (s : HSt) (h : Spec.sources s.fl ≤ 1) (ops : List HOp) : Spec.sources (hRun s ops).fl ≤ 1 := by
  induction ops generalizing s with
  | nil => exact h
  | cons o os ih =>
    apply ih
    have step : ∀ f, OneOf s.fl f → Spec.sources f ≤ 1 := by
      rintro f (h' | ⟨src, h'⟩)
      · rw [h']; exact h
      · rw [only_sources h']
    cases o with
    | init => simp [HOp.run, HFlags.setBaro, Spec.sources]
    | timeouts x => exact step _ (heightTimeouts_one x s)
    | control x => rw [HOp.run, controlHeight_fl]; exact step _ (selectHeight_one x s)
    | stopGps =>
      obtain ⟨⟨b, g, r, e⟩, _⟩ := s
      revert h
      cases b <;> cases g <;> cases r <;> cases e <;> simp [HOp.run, stopGpsPos, Spec.sources]
    | gpsOrigin x => rw [HOp.run, startGps_fl]; simp [Spec.sources]

/-- **C19.** After initialisation there is exactly one source, and only stopping GPS while GPS is the height source can
change that: without such a stop there is always exactly one source. -/
theorem exactly_one_source (s : HSt) (h : Spec.sources s.fl = 1) (ops : List HOp)
    (hno : ∀ pre post, ops = pre ++ HOp.stopGps :: post → (hRun s pre).fl.gps = false) : Spec.sources (hRun s ops).fl = 1 := by
  induction ops generalizing s with
  | nil => exact h
  | cons o os ih =>
    have step : ∀ f, OneOf s.fl f → Spec.sources f = 1 := by
      rintro f (h' | ⟨src, h'⟩)
      · rw [h']; exact h
      · rw [only_sources h']
    refine ih (HOp.run s o) ?_ ?_
    · cases o with
      | init => simp [HOp.run, HFlags.setBaro, Spec.sources]
      | timeouts x => exact step _ (heightTimeouts_one x s)
      | control x => rw [HOp.run, controlHeight_fl]; exact step _ (selectHeight_one x s)
      | stopGps =>
        have hg : s.fl.gps = false := hno [] os rfl
        have : (stopGpsPos s).fl = s.fl := by unfold stopGpsPos; simp only [← hg]
        rw [HOp.run, this]; exact h
      | gpsOrigin x => rw [HOp.run, startGps_fl]; simp [Spec.sources]
    · intro pre post e
      exact hno (o :: pre) post (by rw [e]; rfl)

theorem init_one (s : HSt) : Spec.sources (HOp.run s .init).fl = 1 := by simp [HOp.run, HFlags.setBaro, Spec.sources]

/-! ## C20: the trap -/

/-- a step with GPS configured as the primary height source and range aiding not applicable -/
def Spec.GpsPrimary (x : HIn) : Prop := x.vdist = 1 ∧ ¬ (x.rangeAid = 1 ∧ x.rngAidSuitable = true ∧ x.rngDataHealthy = true)

/-- continuation without a new origin or initialisation; the previous flags are those of the state -/
def Spec.Continuation (s : HSt) : List HOp → Prop
  | [] => True
  | .timeouts x :: os => Spec.GpsPrimary x ∧ Spec.Continuation (heightTimeouts x s).1 os
  | .control x :: os => Spec.GpsPrimary x ∧ x.prev.rng = false ∧ Spec.Continuation (controlHeight x s).1 os
  | .stopGps :: os => Spec.Continuation (stopGpsPos s) os
  | .init :: _ => False
  | .gpsOrigin _ :: _ => False

theorem timeouts_none (x : HIn) (s : HSt) (h : Spec.none s.fl) : heightTimeouts x s = (s, false) := by
  unfold heightTimeouts
  unfold Spec.none at h
  simp only [h, Bool.false_eq_true, if_false, ite_self]

theorem select_none (x : HIn) (s : HSt) (h : Spec.none s.fl) (hx : Spec.GpsPrimary x) (hp : x.prev.rng = false) :
    selectHeight x s = (s, false) := by
  unfold Spec.none at h
  obtain ⟨h1, h2⟩ := hx
  have : ((decide (x.rangeAid = 1) && x.rngAidSuitable) && x.rngDataHealthy) = false := by
    rw [← Bool.not_eq_true, Bool.and_eq_true, Bool.and_eq_true, decide_eq_true_eq]
    exact fun ⟨⟨a, b⟩, c⟩ => h2 ⟨a, b, c⟩
  unfold selectHeight
  simp only [h1, hp, Bool.not_false, Bool.true_and, this, h, Bool.false_eq_true, if_false, Bool.false_and, if_true]
  norm_num

/-- **C20.** Once GPS was stopped while being the height source, the filter has no height source; with GPS configured as
primary source and range aiding not applicable nothing in the height controller ever selects one again — not even when GPS
recovers — no height is ever fused and no height reset happens. -/
theorem gps_height_trap (s : HSt) (h : Spec.none s.fl) (ops : List HOp) (hc : Spec.Continuation s ops) :
    Spec.none (hRun s ops).fl ∧
    (∀ x, Spec.GpsPrimary x → x.prev.rng = false → (controlHeight x (hRun s ops)).2 = none ∧ (heightTimeouts x (hRun s ops)).2 = false) := by
  have last : ∀ s' : HSt, Spec.none s'.fl → Spec.none s'.fl ∧
      (∀ x, Spec.GpsPrimary x → x.prev.rng = false → (controlHeight x s').2 = none ∧ (heightTimeouts x s').2 = false) := by
    intro s' h'
    refine ⟨h', fun x hx hp => ⟨?_, by rw [timeouts_none x s' h']⟩⟩
    unfold controlHeight
    rw [select_none x s' h' hx hp]
    have : (updateBaroOffset x s').fl.rng = false := by rw [updateBaroOffset_fl]; unfold Spec.none at h'; rw [h']
    simp [this]
  induction ops generalizing s with
  | nil => exact last s h
  | cons o os ih =>
    cases o with
    | init => exact absurd hc (by simp [Spec.Continuation])
    | gpsOrigin x => exact absurd hc (by simp [Spec.Continuation])
    | timeouts x =>
      obtain ⟨_, hc2⟩ := hc
      refine ih _ ?_ hc2
      show Spec.none (heightTimeouts x s).1.fl
      rw [timeouts_none x s h]; exact h
    | control x =>
      obtain ⟨hx, hp, hc2⟩ := hc
      refine ih _ ?_ hc2
      show Spec.none (controlHeight x s).1.fl
      rw [controlHeight_fl, select_none x s h hx hp]; exact h
    | stopGps =>
      refine ih (stopGpsPos s) ?_ hc
      unfold Spec.none at h ⊢
      unfold stopGpsPos; simp only [h]

/-- **C20 (entering the trap).** Stopping GPS in GPS height mode leaves no height source. -/
theorem stop_gps_no_source (s : HSt) (h : Spec.only s.fl .gps) : Spec.none (stopGpsPos s).fl := by
  unfold Spec.only at h; unfold Spec.none stopGpsPos; simp only [h]

/-- the trap is reachable: initialise, set the origin with GPS as primary height source, stop GPS -/
theorem trap_reachable (s : HSt) (x : HIn) : Spec.none (hRun s [.init, .gpsOrigin x, .stopGps]).fl :=
  stop_gps_no_source _ (startGps_fl x _)

/-- **C20 (way out).** The only ways out: suitable range aiding, or another primary source. -/
theorem trap_exit (x : HIn) (s : HSt) (h : Spec.none s.fl) (hp : x.prev.rng = false) (he : ¬ Spec.none (controlHeight x s).1.fl) :
    (x.vdist = 1 ∧ x.rangeAid = 1 ∧ x.rngAidSuitable = true ∧ x.rngDataHealthy = true) ∨ x.vdist ≠ 1 := by
  by_contra hcon
  push Not at hcon
  obtain ⟨h1, h2⟩ := hcon
  apply he
  rw [controlHeight_fl, select_none x s h ⟨h2, fun ⟨a, b, c⟩ => h1 h2 a b c⟩ hp]
  exact h

/-! ## C92: source selection for each configuration -/

/-- range aiding is in effect -/
def Spec.aid (x : HIn) : Prop := x.rangeAid = 1 ∧ x.rngAidSuitable = true

/-- **C92 (barometer primary).** Range finder while range aiding applies and its data are healthy; otherwise the barometer as
soon as it has a new sample and is not faulty (if range aiding does not apply); otherwise unchanged. -/
theorem select_baro_primary (x : HIn) (s : HSt) (hv : x.vdist ≠ 1 ∧ x.vdist ≠ 2 ∧ x.vdist ≠ 3) :
    let r := selectHeight x s
    (Spec.aid x ∧ x.rngDataHealthy = true → Spec.only r.1.fl .rng ∧ r.2 = true ∧
      r.1.offset = if x.prev.rng then s.offset else x.terrainVpos) ∧
    (¬ Spec.aid x ∧ x.baroReady = true ∧ s.baroFaulty = false → Spec.only r.1.fl .baro ∧ r.2 = true ∧ r.1.offset = 0) ∧
    (¬ (Spec.aid x ∧ x.rngDataHealthy = true) → ¬ (¬ Spec.aid x ∧ x.baroReady = true ∧ s.baroFaulty = false) →
      r.1.fl = s.fl ∧ (r.2 = true ↔ s.fl.gps = true ∧ x.gpsReady = true ∧ x.gpsIntermittent = false) ∧
      (r.2 = true → r.1.offset = if x.prev.gps then s.offset else x.gpsHgt - x.gpsAltRef + s.posD)) := by
  intro r
  have hr : r = selectHeight x s := rfl
  obtain ⟨h1, h2, h3⟩ := hv
  unfold selectHeight at hr
  rw [if_neg h2, if_neg h1, if_neg h3] at hr
  have ha : (decide (x.rangeAid = 1) && x.rngAidSuitable) = true ↔ Spec.aid x := by
    unfold Spec.aid; rw [Bool.and_eq_true, decide_eq_true_eq]
  generalize (decide (x.rangeAid = 1) && x.rngAidSuitable) = aid at ha hr
  simp only [← ha]
  have e1 : ∀ s' : HSt, (if x.prev.rng ≠ (s'.fl.setRange).rng then ({ s' with fl := s'.fl.setRange, offset := x.terrainVpos } : HSt)
      else { s' with fl := s'.fl.setRange }).offset = if x.prev.rng then s'.offset else x.terrainVpos := by
    intro s'; cases x.prev.rng <;> simp [HFlags.setRange]
  have e2 : ∀ s' : HSt, (if x.prev.rng ≠ (s'.fl.setRange).rng then ({ s' with fl := s'.fl.setRange, offset := x.terrainVpos } : HSt)
      else { s' with fl := s'.fl.setRange }).fl = ⟨false, false, true, false⟩ := by
    intro s'; cases x.prev.rng <;> simp [HFlags.setRange]
  cases aid
  · simp only [Bool.false_and, Bool.false_eq_true, if_false, Bool.not_false, Bool.true_and] at hr
    refine ⟨fun h => by simp at h, fun ⟨_, hb, hf⟩ => ?_, fun _ hn => ?_⟩
    · rw [hb, hf] at hr
      simp only [Bool.not_false, Bool.and_self, if_true] at hr
      rw [hr]; exact ⟨rfl, rfl, rfl⟩
    · have hbf : (x.baroReady && !s.baroFaulty) = false := by
        rw [← Bool.not_eq_true]; simpa using hn
      rw [hbf] at hr
      simp only [Bool.false_eq_true, if_false] at hr
      cases hg : s.fl.gps <;> cases hgr : x.gpsReady <;> cases hgi : x.gpsIntermittent <;>
        simp only [hg, hgr, hgi, Bool.false_and, Bool.true_and, Bool.false_eq_true, if_false, if_true, Bool.not_true, Bool.not_false, Bool.and_false] at hr <;>
        rw [hr] <;> simp
      cases x.prev.gps <;> simp
  · simp only [Bool.true_and, Bool.not_true, Bool.false_and, Bool.false_eq_true, if_false] at hr
    cases hd : x.rngDataHealthy
    · rw [hd] at hr
      simp only [Bool.false_eq_true, if_false] at hr
      refine ⟨fun h => by simp at h, fun h => by simp at h, fun _ _ => ?_⟩
      cases hg : s.fl.gps <;> cases hgr : x.gpsReady <;> cases hgi : x.gpsIntermittent <;>
        simp only [hg, hgr, hgi, Bool.false_and, Bool.true_and, Bool.false_eq_true, if_false, if_true, Bool.not_true, Bool.not_false, Bool.and_false] at hr <;>
        rw [hr] <;> simp
      cases x.prev.gps <;> simp
    · rw [hd] at hr
      simp only [if_true] at hr
      refine ⟨fun _ => ?_, fun h => by simp at h, fun h => by simp at h⟩
      rw [hr]
      exact ⟨e2 s, rfl, e1 s⟩

/-- **C92 (range finder primary).** -/
theorem select_range_primary (x : HIn) (s : HSt) (hv : x.vdist = 2) :
    let r := selectHeight x s
    (x.rngDataHealthy = true → Spec.only r.1.fl .rng ∧ r.2 = true ∧
      r.1.offset = if x.prev.rng then s.offset else if x.inAir then (if x.terrainValid then x.terrainVpos else x.dist + s.posD) else x.clearance) ∧
    (x.rngDataHealthy = false → r.1 = s ∧ (r.2 = true ↔ s.fl.baro = true ∧ x.baroReady = true ∧ s.baroFaulty = false)) := by
  intro r
  have hr : r = selectHeight x s := rfl
  unfold selectHeight at hr
  rw [if_pos hv] at hr
  constructor
  · intro h
    rw [if_pos h] at hr
    rw [hr]
    refine ⟨?_, rfl, ?_⟩
    · show (if _ then _ else _ : HSt).fl = _
      split_ifs <;> rfl
    · show (if _ then _ else _ : HSt).offset = _
      cases x.prev.rng <;> cases x.inAir <;> cases x.terrainValid <;> simp [HFlags.setRange]
  · intro h
    rw [if_neg (by rw [h]; simp)] at hr
    cases hb : s.fl.baro <;> cases hbr : x.baroReady <;> cases hf : s.baroFaulty <;>
      simp only [hb, hbr, hf, Bool.false_and, Bool.true_and, Bool.false_eq_true, if_false, if_true, Bool.not_true, Bool.not_false, Bool.and_false] at hr <;>
      rw [hr] <;> simp

/-- **C92 (GPS primary).** -/
theorem select_gps_primary (x : HIn) (s : HSt) (hv : x.vdist = 1) :
    let r := selectHeight x s
    let gpsOk := x.gpsIntermittent = false ∧ x.gpsChecksPassed = true
    (x.prev.rng = false ∧ Spec.aid x ∧ x.rngDataHealthy = true → Spec.only r.1.fl .rng ∧ r.1.offset = x.terrainVpos) ∧
    (x.prev.rng = true ∧ ¬ Spec.aid x ∧ gpsOk → Spec.only r.1.fl .gps) ∧
    (x.prev.rng = true ∧ ¬ Spec.aid x ∧ ¬ gpsOk ∧ s.baroFaulty = false → Spec.only r.1.fl .baro) ∧
    (x.prev.rng = false ∧ ¬ Spec.aid x ∧ s.fl.baro = true ∧ gpsOk → Spec.only r.1.fl .gps) ∧
    (x.prev.rng = true ∧ Spec.aid x ∧ s.fl.baro = false → r.1 = s) ∧
    (r.2 = true ↔ (r.1.fl.gps = true ∧ x.gpsReady = true) ∨ (r.1.fl.rng = true ∧ x.rngDataHealthy = true) ∨
      (r.1.fl.baro = true ∧ x.baroReady = true ∧ r.1.baroFaulty = false)) := by
  intro r gpsOk
  have hr : r = selectHeight x s := rfl
  unfold selectHeight at hr
  rw [if_neg (by rw [hv]; decide), if_pos hv] at hr
  have ha : (decide (x.rangeAid = 1) && x.rngAidSuitable) = true ↔ Spec.aid x := by
    unfold Spec.aid; rw [Bool.and_eq_true, decide_eq_true_eq]
  generalize (decide (x.rangeAid = 1) && x.rngAidSuitable) = aid at ha hr
  simp only [← ha]
  have hgo : (!x.gpsIntermittent && x.gpsChecksPassed) = true ↔ gpsOk := by simp [gpsOk]
  -- the state after the switching logic
  obtain ⟨s', hs'⟩ : ∃ s' : HSt, s' =
      (if (!x.prev.rng && aid && x.rngDataHealthy) = true then ({ s with fl := s.fl.setRange, offset := x.terrainVpos } : HSt)
       else if (x.prev.rng && !aid) = true then
        if (!x.gpsIntermittent && x.gpsChecksPassed) = true then startGps x s
        else if (!s.baroFaulty) = true then startBaro x s else s
       else if (s.fl.baro && !aid && !x.gpsIntermittent && x.gpsChecksPassed) = true then startGps x s
       else s) := ⟨_, rfl⟩
  have hr' : r = (if (s'.fl.gps && x.gpsReady) = true then (s', true)
      else if (s'.fl.rng && x.rngDataHealthy) = true then (s', true)
      else if (s'.fl.baro && x.baroReady && !s'.baroFaulty) = true then (s', true) else (s', false)) := by
    rw [hr, hs']
  have hr1 : r.1 = s' := by rw [hr']; split_ifs <;> rfl
  have hr2 : r.2 = true ↔ (s'.fl.gps = true ∧ x.gpsReady = true) ∨ (s'.fl.rng = true ∧ x.rngDataHealthy = true) ∨
      (s'.fl.baro = true ∧ x.baroReady = true ∧ s'.baroFaulty = false) := by
    rw [hr']
    cases s'.fl.gps <;> cases x.gpsReady <;> cases s'.fl.rng <;> cases x.rngDataHealthy <;> cases s'.fl.baro <;>
      cases x.baroReady <;> cases s'.baroFaulty <;> simp
  refine ⟨?_, ?_, ?_, ?_, ?_, by rw [hr1]; exact hr2⟩ <;> rw [hr1]
  · rintro ⟨a, b, c⟩
    rw [if_pos (by simp [a, b, c])] at hs'
    rw [hs']; exact ⟨rfl, rfl⟩
  · rintro ⟨a, b, c⟩
    rw [if_neg (by simp [a]), if_pos (by simp [a, b]), if_pos (hgo.mpr c)] at hs'
    rw [hs']; exact startGps_fl x s
  · rintro ⟨a, b, c, d⟩
    rw [if_neg (by simp [a]), if_pos (by simp [a, b]), if_neg (fun h => c (hgo.mp h)), if_pos (by simp [d])] at hs'
    rw [hs']; exact startBaro_fl x s
  · rintro ⟨a, b, c, d⟩
    rw [Bool.not_eq_true] at b
    rw [if_neg (by simp [b]), if_neg (by simp [a]), if_pos (by simp [b, c, d.1, d.2])] at hs'
    rw [hs']; exact startGps_fl x s
  · rintro ⟨a, b, c⟩
    rw [if_neg (by simp [a]), if_neg (by simp [b]), if_neg (by simp [c])] at hs'
    exact hs'

/-- **C92 (vision primary).** Vision is selected (with a height reset) as soon as vision messages arrive regularly. Finding:
once selected, vision height is fused at every step, whether or not a new vision sample has arrived. -/
theorem select_ev_primary (x : HIn) (s : HSt) (hv : x.vdist = 3) :
    let r := selectHeight x s
    (s.fl.ev = false ∧ isRecent x.now x.tLastEv 400000 = true → r = (resetHeight x { s with fl := ⟨false, false, false, true⟩ }, true)) ∧
    (s.fl.ev = true → r = (s, true)) ∧
    (s.fl.ev = false ∧ isRecent x.now x.tLastEv 400000 = false →
      r.1 = s ∧ (r.2 = true ↔ s.fl.baro = true ∧ x.baroReady = true ∧ s.baroFaulty = false)) := by
  intro r
  have hr : r = selectHeight x s := rfl
  unfold selectHeight at hr
  rw [if_neg (by rw [hv]; decide), if_neg (by rw [hv]; decide), if_pos hv] at hr
  refine ⟨?_, ?_, ?_⟩
  · rintro ⟨a, b⟩
    simp only [a, b, Bool.not_false, Bool.and_self, if_true, resetHeight_fl, HFlags.setEv, Bool.false_and, Bool.false_eq_true, if_false] at hr
    exact hr
  · intro a
    simp only [a, Bool.not_true, Bool.false_and, Bool.false_eq_true, if_false] at hr
    rw [hr]
    cases s.fl.baro <;> cases x.baroReady <;> cases s.baroFaulty <;> simp [a]
  · rintro ⟨a, b⟩
    simp only [a, b, Bool.not_false, Bool.and_false, Bool.false_eq_true, if_false] at hr
    cases hb : s.fl.baro <;> cases hbr : x.baroReady <;> cases hf : s.baroFaulty <;>
      simp only [hb, hbr, hf, a, Bool.false_and, Bool.true_and, Bool.false_eq_true, if_false, if_true, Bool.not_true, Bool.not_false, Bool.and_false] at hr <;>
      rw [hr] <;> simp [a]

/-! ## C93: height observations -/

/-- **C93 (observation).** If a height is fused it is that of the active source, with a positive gate of at least 1 and a
variance bounded away from zero; nothing is fused without a source. -/
theorem height_observation (x : HIn) (d : ℝ) (s : HSt) (h1 : Spec.sources s.fl ≤ 1) :
    (Spec.none s.fl → heightObs x d s = none) ∧
    (∀ o, heightObs x d s = some o → Spec.only s.fl o.src ∧ 1 ≤ o.gate ∧ 1 / 10000 ≤ o.var) ∧
    (s.fl.baro = true → ∃ o, heightObs x d s = some o ∧ o.gate = max x.baroGate 1 ∧ o.var = (max x.baroNoise (1 / 100)) ^ 2 ∧
      (s.gndEffect = false → o.innov = s.posD + x.baroHgt - s.baroOffset)) ∧
    (s.fl.gps = true → ∃ o, heightObs x d s = some o ∧ o.gate = max x.baroGate 1 ∧
      o.var = gpsHeightVariance x.gpsPosNoise x.posNoaidNoise x.gpsVacc ∧ o.innov = s.posD - (s.offset - (x.gpsHgt - x.gpsAltRef))) ∧
    (s.fl.rng = true → ∃ o, heightObs x d s = some o ∧ o.gate = max x.rangeGate 1 ∧
      o.var = max (x.rangeNoise ^ 2 + (x.rangeNoiseScaler * d) ^ 2) (1 / 100) ∧ o.innov = s.posD - (s.offset - max d x.clearance)) ∧
    (s.fl.ev = true → ∃ o, heightObs x d s = some o ∧ o.gate = max x.evGate 1 ∧ o.var = max x.evVar (1 / 10000) ∧ o.innov = s.posD - x.evDelayed) := by
  have hs : ∀ y : ℝ, sq y = y ^ 2 := fun y => (pow_two y).symm
  have hbv : (1 : ℝ) / 10000 ≤ sq (max x.baroNoise (1 / 100)) := by
    have := le_max_right x.baroNoise (1 / 100)
    rw [hs]
    nlinarith
  have hgv : (1 : ℝ) / 10000 ≤ gpsHeightVariance x.gpsPosNoise x.posNoaidNoise x.gpsVacc := by
    unfold gpsHeightVariance
    simp only []
    have h1 := le_max_right (15 / 10 * x.gpsPosNoise) (1 / 100)
    have h2 := le_max_right (15 / 10 * x.posNoaidNoise) (max (15 / 10 * x.gpsPosNoise) (1 / 100))
    have h3 := constrain_ge (v := x.gpsVacc) h2
    rw [hs]
    nlinarith
  have hrv : (1 : ℝ) / 10000 ≤ max (sq x.rangeNoise + sq (x.rangeNoiseScaler * d)) (1 / 100) :=
    le_trans (by norm_num) (le_max_right _ _)
  have hev : (1 : ℝ) / 10000 ≤ max x.evVar (sq (1 / 100)) := le_trans (by unfold sq; norm_num) (le_max_right _ _)
  obtain ⟨⟨b, g, r, e⟩, ge, off, bo, t, bf, w, p, v, vp, vv⟩ := s
  unfold heightObs Spec.none
  simp only [mmax_eq]
  revert h1
  cases b <;> cases g <;> cases r <;> cases e <;> simp only [Spec.sources, Spec.only, Bool.toNat_true, Bool.toNat_false] <;> intro h1 <;>
    first
      | omega
      | skip
  · simp
  · refine ⟨by simp, ?_, by simp, by simp, by simp, ?_⟩
    · rintro o ho
      simp only [Bool.false_eq_true, if_false, if_true, Option.some.injEq] at ho
      subst ho; exact ⟨by trivial, le_max_right _ _, hev⟩
    · intro _
      exact ⟨_, rfl, rfl, by rw [show (1 : ℝ) / 10000 = sq (1 / 100) by unfold sq; norm_num], rfl⟩
  · refine ⟨by simp, ?_, by simp, by simp, ?_, by simp⟩
    · rintro o ho
      simp only [Bool.false_eq_true, if_false, if_true, Option.some.injEq] at ho
      subst ho; exact ⟨by trivial, le_max_right _ _, hrv⟩
    · intro _
      exact ⟨_, rfl, rfl, by simp only [hs], by ring⟩
  · refine ⟨by simp, ?_, by simp, ?_, by simp, by simp⟩
    · rintro o ho
      simp only [Bool.false_eq_true, if_false, if_true, Option.some.injEq] at ho
      subst ho; exact ⟨by trivial, le_max_right _ _, hgv⟩
    · intro _
      exact ⟨_, rfl, rfl, rfl, by ring⟩
  · refine ⟨by simp, ?_, ?_, by simp, by simp, by simp⟩
    · rintro o ho
      simp only [if_true, Option.some.injEq] at ho
      subst ho; exact ⟨by trivial, le_max_right _ _, hbv⟩
    · intro _
      refine ⟨_, rfl, rfl, hs _, fun hg => ?_⟩
      simp [baroInnov, hg]

/-- **C93 (ground effect deadzone).** With ground effect compensation a negative barometer innovation is reduced in size by the
deadzone (to no less than zero), a positive one is used unchanged. -/
theorem ground_effect_deadzone (x : HIn) (s : HSt) (hg : s.gndEffect = true) (hd : 0 ≤ x.gndEffectDeadzone) :
    let i := s.posD + x.baroHgt - s.baroOffset
    (0 ≤ i → baroInnov x s = i) ∧ (i ≤ 0 → baroInnov x s = min (i + x.gndEffectDeadzone) 0) := by
  intro i
  unfold baroInnov
  simp only [hg, if_true, neg_zero, zero_add]
  change (0 ≤ i → (if i < 0 then _ else i) = i) ∧ (i ≤ 0 → (if i < 0 then (if i ≤ -x.gndEffectDeadzone then i + x.gndEffectDeadzone else 0) else i) = _)
  constructor
  · intro h; rw [if_neg (not_lt.mpr h)]
  · intro h
    rcases lt_or_eq_of_le h with h' | h'
    · rw [if_pos h']
      split_ifs with h2
      · rw [min_eq_left (by linarith)]
      · rw [min_eq_right (by linarith)]
    · rw [if_neg (by linarith), h', zero_add, min_eq_right hd]

/-- **C93 (no step at a switch).** At the step that switches to GPS height (the previous step used another source) the
innovation is exactly zero. -/
theorem gps_switch_no_step (x : HIn) (s : HSt) (hp : x.prev.gps = false) (d : ℝ) :
    ∃ o, heightObs x d (startGps x s) = some o ∧ o.src = .gps ∧ o.innov = 0 := by
  have hf := startGps_fl x s
  refine ⟨⟨.gps, (startGps x s).posD + x.gpsHgt - x.gpsAltRef - (startGps x s).offset, max x.baroGate 1,
    gpsHeightVariance x.gpsPosNoise x.posNoaidNoise x.gpsVacc⟩, ?_, rfl, ?_⟩
  · unfold heightObs; rw [hf]; simp
  · unfold startGps
    simp [HFlags.setGps, hp]
    ring

/-- **C93 (no step at a switch to range in flight).** With range as primary source and no terrain estimate the first range
innovation is zero (range above the ground clearance parameter). -/
theorem range_switch_no_step (x : HIn) (s : HSt) (hv : x.vdist = 2) (hd : x.rngDataHealthy = true) (hp : x.prev.rng = false)
    (ha : x.inAir = true) (ht : x.terrainValid = false) (hc : x.clearance ≤ x.dist) :
    ∃ o, heightObs x x.dist (selectHeight x s).1 = some o ∧ o.src = .rng ∧ o.innov = 0 := by
  obtain ⟨h1, -, h3⟩ := (select_range_primary x s hv).1 hd
  rw [hp, ha, ht] at h3
  have hpos : (selectHeight x s).1.posD = s.posD := by
    unfold selectHeight; rw [if_pos hv, if_pos hd]
    show (if _ then _ else _ : HSt).posD = _
    split_ifs <;> rfl
  unfold Spec.only at h1
  simp only at h1
  refine ⟨⟨.rng, (selectHeight x s).1.posD - (-(mmax x.dist x.clearance)) - (selectHeight x s).1.offset, max x.rangeGate 1,
      max (sq x.rangeNoise + sq (x.rangeNoiseScaler * x.dist)) (1 / 100)⟩, ?_, rfl, ?_⟩
  · unfold heightObs; rw [h1]; simp
  · simp only [h3, hpos, mmax_eq, max_eq_left hc]
    simp
    ring

/-- **C93 (what is fused when).** `controlHeight` fuses an observation of the active source iff the selection asks for it or a
range measurement is synthesised: range finder mode, on ground, range data regular but unhealthy, nothing fused for 0.4 s. -/
theorem controlHeight_fused (x : HIn) (s : HSt) :
    let s' := (controlHeight x s).1
    let synth := s'.fl.rng = true ∧ isTimedOut x.now s'.tHgt 400000 = true ∧ x.rngDataHealthy = false ∧ x.rngRegular = true ∧ x.inAir = false
    s' = updateBaroOffset x (selectHeight x s).1 ∧
    (synth → (controlHeight x s).2 = heightObs x (x.clearance * x.cosTilt) s') ∧
    (¬ synth → (controlHeight x s).2 = if (selectHeight x s).2 then heightObs x x.dist s' else none) := by
  intro s' synth
  have h1 : s' = updateBaroOffset x (selectHeight x s).1 := controlHeight_st x s
  have hsy : (s'.fl.rng && isTimedOut x.now s'.tHgt 400000 && !x.rngDataHealthy && x.rngRegular && !x.inAir) = true ↔ synth := by
    simp [synth, and_assoc]
  refine ⟨h1, fun h => ?_, fun h => ?_⟩
  · have h2 := hsy.mpr h
    rw [h1] at h2
    unfold controlHeight
    simp only []
    rw [h2, Bool.or_true, if_pos rfl, if_pos rfl, ← h1]
  · have h2 : (s'.fl.rng && isTimedOut x.now s'.tHgt 400000 && !x.rngDataHealthy && x.rngRegular && !x.inAir) = false := by
      rw [← Bool.not_eq_true, hsy]; exact h
    rw [h1] at h2
    unfold controlHeight
    simp only []
    rw [h2, Bool.or_false, ← h1]
    cases (selectHeight x s).2 <;> simp

/-- **C93 (ground effect expiry).** Height control never switches ground effect compensation on. With the barometer as selected source, every fused
barometer sample switches it off once it was last requested at least 10 s ago, and keeps it before; without range aiding so. -/
theorem ground_effect_expiry (x : HIn) (s : HSt) :
    let s' := (controlHeight x s).1
    (s'.gndEffect = true → s.gndEffect = true) ∧
    (x.vdist ≠ 1 → x.vdist ≠ 2 → x.vdist ≠ 3 → ¬ Spec.aid x → x.baroReady = true → s.baroFaulty = false →
      (s'.gndEffect = true ↔ s.gndEffect = true ∧ isTimedOut x.now x.tGndEffect 10000000 = false)) := by
  intro s'
  have h1 : s' = updateBaroOffset x (selectHeight x s).1 := controlHeight_st x s
  have hu : ∀ t, (updateBaroOffset x t).gndEffect = t.gndEffect := by
    intro t; unfold updateBaroOffset; split <;> rfl
  have hb : ∀ t, (startBaro x t).gndEffect = (t.gndEffect && !isTimedOut x.now x.tGndEffect 10000000) := by
    intro t; unfold startBaro
    cases t.gndEffect <;> cases isTimedOut x.now x.tGndEffect 10000000 <;> rfl
  have hr : ∀ t, (resetHeight x t).gndEffect = t.gndEffect := fun t => (resetHeight_frame x t).2.2.2.2.1
  have hg : ∀ t, (startGps x t).gndEffect = t.gndEffect := by
    intro t; unfold startGps; simp only; split <;> rfl
  rw [h1, hu]
  constructor
  · have hbi : ∀ t, (startBaro x t).gndEffect = true → t.gndEffect = true := by
      intro t h; rw [hb, Bool.and_eq_true] at h; exact h.1
    have hgi : ∀ t, (startGps x t).gndEffect = true → t.gndEffect = true := by
      intro t h; rwa [hg] at h
    have pf : ∀ (c : Bool) (p q : HSt × Bool), (p.1.gndEffect = true → s.gndEffect = true) → (q.1.gndEffect = true → s.gndEffect = true) →
        ((if c = true then p else q : HSt × Bool).1.gndEffect = true → s.gndEffect = true) := by
      intro c p q h1 h2; cases c <;> simpa using ‹_›
    have pfs : ∀ (c : Bool) (p q : HSt), (p.gndEffect = true → s.gndEffect = true) → (q.gndEffect = true → s.gndEffect = true) →
        ((if c = true then p else q : HSt).gndEffect = true → s.gndEffect = true) := by
      intro c p q h1 h2; cases c <;> simpa using ‹_›
    have pfd : ∀ (c : Prop) [Decidable c] (p q : HSt), (p.gndEffect = true → s.gndEffect = true) → (q.gndEffect = true → s.gndEffect = true) →
        ((if c then p else q : HSt).gndEffect = true → s.gndEffect = true) := by
      intro c _ p q h1 h2; split <;> assumption
    unfold selectHeight
    by_cases v2 : x.vdist = 2
    · rw [if_pos v2]
      refine pf _ _ _ ?_ (pf _ _ _ id id)
      refine pfd _ _ _ ?_ id
      exact pfs _ _ _ id (pfs _ _ _ id id)
    rw [if_neg v2]
    by_cases v1 : x.vdist = 1
    · rw [if_pos v1]
      have key : ∀ t : HSt, (t.gndEffect = true → s.gndEffect = true) →
          ((if t.fl.gps && x.gpsReady then (t, true)
            else if t.fl.rng && x.rngDataHealthy then (t, true)
            else if t.fl.baro && x.baroReady && !t.baroFaulty then (t, true)
            else (t, false) : HSt × Bool).1.gndEffect = true → s.gndEffect = true) :=
        fun t ht => pf _ _ _ ht (pf _ _ _ ht (pf _ _ _ ht ht))
      refine key _ ?_
      exact pfs _ _ _ id (pfs _ _ _ (pfs _ _ _ (hgi s) (pfs _ _ _ (hbi s) id)) (pfs _ _ _ (hgi s) id))
    rw [if_neg v1]
    by_cases v3 : x.vdist = 3
    · rw [if_pos v3]
      have key : ∀ r : HSt × Bool, (r.1.gndEffect = true → s.gndEffect = true) →
          ((let r := if r.1.fl.baro && x.baroReady && !r.1.baroFaulty then (r.1, true) else r
            if r.1.fl.ev then (r.1, true) else r : HSt × Bool).1.gndEffect = true → s.gndEffect = true) := by
        intro r hr'
        have h2 := pf (r.1.fl.baro && x.baroReady && !r.1.baroFaulty) (r.1, true) r hr' hr'
        exact pf _ _ _ h2 h2
      refine key _ (pf _ _ _ ?_ id)
      intro h; rw [hr] at h; exact h
    rw [if_neg v3]
    refine pf _ _ _ (pfd _ _ _ id id) (pf _ _ _ (hbi s) (pf _ _ _ (pfd _ _ _ id id) id))
  · intro a1 a2 a3 a4 a5 a6
    have ha : (decide (x.rangeAid = 1) && x.rngAidSuitable) = false := by
      rw [← Bool.not_eq_true, Bool.and_eq_true, decide_eq_true_eq]; exact a4
    unfold selectHeight
    simp only [ha]
    rw [if_neg a2, if_neg a1, if_neg a3, if_neg (by simp), if_pos (by rw [a5, a6]; rfl)]
    simp [hb]

/-- **C93 (finding).** Expiry is tied to starting the barometer: with GPS as selected source and the barometer as fallback in use, compensation never
expires, however long ago it was requested. -/
theorem ground_effect_stays_in_fallback (x : HIn) (s : HSt) (hv : x.vdist = 1) (hb : s.fl.baro = true) (hr : x.prev.rng = false)
    (ha : ¬ Spec.aid x) (hg : x.gpsIntermittent = true) : (controlHeight x s).1.gndEffect = s.gndEffect := by
  have ha' : (decide (x.rangeAid = 1) && x.rngAidSuitable) = false := by
    rw [← Bool.not_eq_true, Bool.and_eq_true, decide_eq_true_eq]; exact ha
  rw [controlHeight_st]
  have hu : ∀ t, (updateBaroOffset x t).gndEffect = t.gndEffect := by
    intro t; unfold updateBaroOffset; split <;> rfl
  rw [hu]
  unfold selectHeight
  simp only [ha', hr, hb, hg, hv]
  simp
  split_ifs <;> rfl

/-- **C93 (barometer offset kept).** The offset tracking changes nothing while the barometer is the height source (its offset then defines the
height datum) or without a barometer sample, and never changes anything but the offset. -/
theorem baro_offset_kept (x : HIn) (s : HSt) :
    (s.fl.baro = true ∨ x.baroReady = false → updateBaroOffset x s = s) ∧
    { updateBaroOffset x s with baroOffset := s.baroOffset } = s := by
  constructor
  · intro h
    have : (!s.fl.baro && x.baroReady) = false := by rcases h with h | h <;> rw [h] <;> simp
    unfold updateBaroOffset; rw [this]; rfl
  · unfold updateBaroOffset; split <;> rfl

/-- **C93 (barometer offset).** While another source is in use the barometer offset follows the difference between barometer and
filter height, at no more than 0.1 m/s and never by more than 0.1 m per sample, and does not overshoot. -/
theorem baro_offset_tracking (x : HIn) (s : HSt) (hn : s.fl.baro = false) (hr : x.baroReady = true) :
    let target := x.baroHgt + s.posD
    let dt : ℝ := min (x.dtBaro / 1000000) 1
    let b := (updateBaroOffset x s).baroOffset
    |b - s.baroOffset| ≤ dt / 10 ∧ |b - target| ≤ |s.baroOffset - target| ∧
    (|target - s.baroOffset| ≤ 1 → b - target = (1 - dt / 10) * (s.baroOffset - target)) := by
  intro target dt b
  have hdt0 : (0 : ℝ) ≤ (x.dtBaro : ℝ) / 1000000 := by positivity
  have hdt : constrain ((x.dtBaro : ℝ) / 1000000) 0 1 = dt := by
    rw [constrain_eq (by norm_num), max_eq_right (le_min hdt0 (by norm_num))]
  have hd0 : 0 ≤ dt := le_min hdt0 (by norm_num)
  have hd1 : dt ≤ 1 := min_le_right _ _
  have hb : b = s.baroOffset + dt * max (-(1 / 10)) (min ((1 / 10) * (target - s.baroOffset)) (1 / 10)) := by
    show (updateBaroOffset x s).baroOffset = _
    unfold updateBaroOffset
    rw [hn, hr, if_pos (by decide)]
    simp only [hdt]
    rw [constrain_eq (by norm_num)]
  obtain ⟨e, he⟩ : ∃ e, target - s.baroOffset = e := ⟨_, rfl⟩
  rw [he] at hb
  have hse : s.baroOffset - target = -e := by linarith
  have hbt : b - target = -e + dt * max (-(1 / 10)) (min ((1 / 10) * e) (1 / 10)) := by rw [hb]; linarith
  have hbs : b - s.baroOffset = dt * max (-(1 / 10)) (min ((1 / 10) * e) (1 / 10)) := by rw [hb]; ring
  rw [hbs, hbt, hse, he]
  refine ⟨?_, ?_, fun h => ?_⟩
  · rw [abs_mul, abs_of_nonneg hd0]
    have : |max (-(1 / 10)) (min ((1 / 10) * e) (1 / 10))| ≤ 1 / 10 := by
      rw [abs_le]
      exact ⟨le_max_left _ _, max_le (by norm_num) (min_le_right _ _)⟩
    calc dt * _ ≤ dt * (1 / 10) := mul_le_mul_of_nonneg_left this hd0
      _ = dt / 10 := by ring
  · rcases le_total 0 e with h0 | h0
    · have hm : max (-(1 / 10)) (min ((1 / 10) * e) (1 / 10)) = min ((1 / 10) * e) (1 / 10) := by
        apply max_eq_right; exact le_trans (by norm_num) (le_min (by positivity) (by norm_num : (0 : ℝ) ≤ 1 / 10))
      rw [hm]
      have h1 : min ((1 / 10) * e) (1 / 10) ≤ (1 / 10) * e := min_le_left _ _
      have h2 : 0 ≤ min ((1 / 10) * e) (1 / 10) := le_min (by positivity) (by norm_num)
      rw [abs_neg, abs_of_nonneg h0, abs_le]
      constructor <;> nlinarith
    · have hm : max (-(1 / 10)) (min ((1 / 10) * e) (1 / 10)) = max (-(1 / 10)) ((1 / 10) * e) := by
        rw [min_eq_left (by linarith)]
      rw [hm]
      have h1 : (1 / 10) * e ≤ max (-(1 / 10)) ((1 / 10) * e) := le_max_right _ _
      have h2 : max (-(1 / 10)) ((1 / 10) * e) ≤ 0 := max_le (by norm_num) (by linarith)
      rw [abs_neg, abs_of_nonpos h0, abs_le]
      constructor <;> nlinarith
  · obtain ⟨h1, h2⟩ := abs_le.mp h
    rw [min_eq_left (by linarith), max_eq_right (by linarith)]
    ring

/-! ## C94: timeouts and resets -/

/-- **C94 (when).** Nothing happens unless no height has been fused for more than 5 s or the vertical acceleration has been bad
for longer than the configured delay. After a reset the timer restarts, so that resets for lack of fusion are more than 5 s
apart. -/
theorem height_timeout_when (x : HIn) (s : HSt) :
    (isTimedOut x.now s.tHgt 5000000 = false ∧ isTimedOut x.now x.tGoodVert x.badAccDelay = false → heightTimeouts x s = (s, false)) ∧
    ((heightTimeouts x s).2 = true → (heightTimeouts x s).1.tHgt = x.now ∧ (heightTimeouts x s).1.warn = true) ∧
    ((heightTimeouts x s).2 = false → (heightTimeouts x s).1 = s) := by
  refine ⟨fun ⟨a, b⟩ => ?_, ?_, ?_⟩
  · unfold heightTimeouts; simp [a, b]
  · unfold heightTimeouts
    simp only []
    generalize (if s.fl.baro = true then _ else _ : HSt × Bool) = r
    split_ifs with h1 h2
    · intro _; exact ⟨rfl, (resetHeight_frame x _).2.2.2.2.2⟩
    · intro h; exact absurd h (by simp)
    · intro h; exact absurd h (by simp)
  · unfold heightTimeouts
    simp only []
    split_ifs <;> first | (intro _; rfl) | (rename_i h; exact absurd rfl h) | (intro h; exact absurd h (by simp)) | (exfalso; simp_all; done)

/-- choice of the source after a timeout -/
noncomputable def Spec.afterTimeout (x : HIn) (s : HSt) : Option HSrc :=
  if s.fl.baro then
    if x.gpsIntermittent = false ∧ ((x.gpsVaccNew < x.reqVacc ∧ isRecent x.now x.tBadVert 10000000 = false) ∨ s.baroFaulty = true) then some .gps
    else if s.baroFaulty then Option.none else some .baro
  else if s.fl.gps then
    if s.baroFaulty = false ∧ ((|s.posD - (s.offset - x.baroHgtNew + s.baroOffset)| < (x.baroNoise ^ 2 + s.varPos) * x.baroGate ^ 2 ∧
        ¬ x.gpsVaccNew < x.reqVacc) ∨ x.gpsIntermittent = true) then some .baro
    else if x.gpsIntermittent then Option.none else some .gps
  else if s.fl.rng then
    if x.rngHealthy then some .rng else if s.baroFaulty then Option.none else some .baro
  else if s.fl.ev then
    if isRecent x.now x.tNewestEv 400000 then some .ev else if s.baroFaulty then Option.none else some .baro
  else Option.none

/-- **C94 (which).** On a timeout the height is reset to the source given by the table `Spec.afterTimeout`, and that source stays
in use; if the table gives none nothing is changed. -/
theorem height_timeout_source (x : HIn) (s : HSt) (h1 : Spec.sources s.fl ≤ 1)
    (ht : isTimedOut x.now s.tHgt 5000000 = true ∨ isTimedOut x.now x.tGoodVert x.badAccDelay = true) :
    ((heightTimeouts x s).2 = true ↔ ∃ src, Spec.afterTimeout x s = some src) ∧
    (∀ src, Spec.afterTimeout x s = some src → Spec.only (heightTimeouts x s).1.fl src) := by
  have hs : ∀ y : ℝ, sq y = y ^ 2 := fun y => (pow_two y).symm
  have hcond : (isTimedOut x.now s.tHgt 5000000 || isTimedOut x.now x.tGoodVert x.badAccDelay) = true := by
    rcases ht with h | h <;> simp [h]
  unfold heightTimeouts Spec.afterTimeout
  simp only [hcond, if_true, hs]
  have fin : ∀ (r : HSt × Bool) (o : Option HSrc), ((r.2 = true ↔ ∃ src, o = some src) ∧ (∀ src, o = some src → Spec.only r.1.fl src)) →
      (((if r.2 = true then ({ resetHeight x { r.1 with warn := true } with tHgt := x.now }, true) else (r.1, false) : HSt × Bool).2 = true ↔
          ∃ src, o = some src) ∧
        (∀ src, o = some src → Spec.only
          (if r.2 = true then ({ resetHeight x { r.1 with warn := true } with tHgt := x.now }, true) else (r.1, false) : HSt × Bool).1.fl src)) := by
    rintro ⟨r1, r2⟩ o ⟨ha, hb⟩
    cases r2
    · exact ⟨ha, hb⟩
    · refine ⟨⟨fun _ => ha.mp rfl, fun _ => rfl⟩, fun src he => ?_⟩
      show Spec.only (resetHeight x { r1 with warn := true }).fl src
      rw [resetHeight_fl]; exact hb src he
  have key : ∀ (_ : Bool) (s1 : HSt) (src : HSrc), Spec.only s1.fl src →
      (True ↔ ∃ src', some src = some src') ∧ (∀ src', some src = some src' → Spec.only s1.fl src') := by
    intro _ s1 src h
    refine ⟨⟨fun _ => ⟨src, rfl⟩, fun _ => trivial⟩, fun src' he => ?_⟩
    injection he with he
    subst he
    exact h
  have keyN : (False ↔ ∃ src', (Option.none : Option HSrc) = some src') ∧
      (∀ src', (Option.none : Option HSrc) = some src' → Spec.only s.fl src') := by
    exact ⟨⟨fun h => h.elim, fun ⟨_, h⟩ => by simp at h⟩, fun _ h => by simp at h⟩
  have pat : (s.fl = ⟨false, false, false, false⟩) ∨ Spec.only s.fl .baro ∨ Spec.only s.fl .gps ∨ Spec.only s.fl .rng ∨ Spec.only s.fl .ev := by
    unfold Spec.only
    revert h1
    obtain ⟨b, g, r, e⟩ := s.fl
    cases b <;> cases g <;> cases r <;> cases e <;> simp [Spec.sources]
  apply fin
  rcases pat with h | h | h | h | h
  · simp [h]
  · have hb : s.fl.baro = true := by unfold Spec.only at h; rw [h]
    simp only [hb, if_true]
    cases hi : x.gpsIntermittent <;> cases hf : s.baroFaulty <;> cases hr : isRecent x.now x.tBadVert 10000000 <;>
      by_cases hq : x.gpsVaccNew < x.reqVacc <;> simp only [hq, decide_true, decide_false, Bool.not_true, Bool.not_false, Bool.and_true, Bool.and_false, Bool.true_and,
        Bool.false_and, Bool.or_false, Bool.or_true, Bool.false_eq_true, if_true, if_false, true_and, false_and, and_true, and_false, or_true, or_false, Bool.true_eq_false] <;>
      first
        | exact keyN
        | exact key true _ _ (startGps_fl x _)
        | exact key true _ _ h
  · have hb : s.fl.baro = false := by unfold Spec.only at h; rw [h]
    have hg : s.fl.gps = true := by unfold Spec.only at h; rw [h]
    simp only [hb, hg, if_true, Bool.false_eq_true, if_false]
    cases hi : x.gpsIntermittent <;> cases hf : s.baroFaulty <;> by_cases hC : |s.posD - (s.offset - x.baroHgtNew + s.baroOffset)| < (x.baroNoise ^ 2 + s.varPos) * x.baroGate ^ 2 <;>
      by_cases hq : x.gpsVaccNew < x.reqVacc <;> simp only [hq, hC, decide_true, decide_false, Bool.not_true, Bool.not_false, Bool.and_true, Bool.and_false, Bool.true_and,
        Bool.false_and, Bool.or_false, Bool.or_true, Bool.false_eq_true, if_true, if_false, true_and, false_and, and_true, and_false, or_true, or_false, Bool.true_eq_false,
        not_true, not_false_iff] <;>
      first
        | exact keyN
        | exact key true _ _ (startBaro_fl x _)
        | exact key true _ _ h
  · have hb : s.fl.baro = false := by unfold Spec.only at h; rw [h]
    have hg : s.fl.gps = false := by unfold Spec.only at h; rw [h]
    have hr : s.fl.rng = true := by unfold Spec.only at h; rw [h]
    simp only [hb, hg, hr, if_true, Bool.false_eq_true, if_false]
    cases x.rngHealthy <;> cases s.baroFaulty <;> simp only [Bool.not_true, Bool.not_false, Bool.false_eq_true, if_true, if_false] <;>
      first
        | exact keyN
        | exact key true _ _ (startBaro_fl x _)
        | exact key true _ _ h
  · have hb : s.fl.baro = false := by unfold Spec.only at h; rw [h]
    have hg : s.fl.gps = false := by unfold Spec.only at h; rw [h]
    have hr : s.fl.rng = false := by unfold Spec.only at h; rw [h]
    have he : s.fl.ev = true := by unfold Spec.only at h; rw [h]
    simp only [hb, hg, hr, he, if_true, Bool.false_eq_true, if_false]
    cases isRecent x.now x.tNewestEv 400000 <;> cases s.baroFaulty <;> simp only [Bool.not_true, Bool.not_false, Bool.false_eq_true, if_true, if_false] <;>
      first
        | exact keyN
        | exact key true _ _ (startBaro_fl x _)
        | exact key true _ _ h

/-- **C94 (reset values).** A height reset makes the filter height agree with the newest measurement of the active source, with the
measurement variance (the vision reset keeps the old variance), and resets the vertical velocity to GPS if GPS is in use and
current, otherwise to zero with variance 10. -/
theorem reset_height_values (x : HIn) (s : HSt) :
    (Spec.only s.fl .rng → (resetHeight x s).posD = s.offset - x.dist ∧ (resetHeight x s).varPos = x.rangeNoise ^ 2 ∧
      (resetHeight x s).baroOffset = x.baroHgtNew + (s.offset - x.dist)) ∧
    (Spec.only s.fl .baro → s.baroFaulty = false → (resetHeight x s).posD = s.baroOffset - x.baroHgtNew ∧ (resetHeight x s).varPos = x.baroNoise ^ 2 ∧
      (resetHeight x s).baroOffset = s.baroOffset) ∧
    (Spec.only s.fl .gps → x.gpsIntermittent = false → (resetHeight x s).posD = s.offset - (x.gpsHgtNew - x.gpsAltRef) ∧
      (resetHeight x s).varPos = x.gpsVaccNew ^ 2 ∧ (resetHeight x s).baroOffset = x.baroHgtNew + (resetHeight x s).posD) ∧
    (Spec.only s.fl .ev → (resetHeight x s).posD = (if x.tDelayedEv ≤ x.tNewestEv then x.evNewest else x.evDelayed) ∧ (resetHeight x s).varPos = s.varPos) ∧
    ((Spec.only s.fl .baro ∧ s.baroFaulty = true) ∨ (Spec.only s.fl .gps ∧ x.gpsIntermittent = true) ∨ Spec.none s.fl →
      (resetHeight x s).posD = s.posD ∧ (resetHeight x s).varPos = s.varPos) ∧
    (x.gpsAid = true ∧ x.gpsIntermittent = false → (resetHeight x s).velD = x.gpsVelDNew ∧ (resetHeight x s).varVel = (1.5 * x.gpsSaccNew) ^ 2) ∧
    (¬ (x.gpsAid = true ∧ x.gpsIntermittent = false) → (resetHeight x s).velD = 0 ∧ (resetHeight x s).varVel = 10) := by
  have hs : ∀ y : ℝ, sq y = y ^ 2 := fun y => (pow_two y).symm
  have h32 : (3 : ℝ) / 2 = 1.5 := by norm_num
  have hge : (x.tNewestEv ≥ x.tDelayedEv) = (x.tDelayedEv ≤ x.tNewestEv) := rfl
  unfold Spec.only Spec.none resetHeight
  simp only [hs, h32, hge]
  obtain ⟨fl, ge, off, bo, t, bf, w, p, v, vp, vv⟩ := s
  refine ⟨?_, ?_, ?_, ?_, ?_, ?_, ?_⟩
  · intro h; simp only at h; subst h
    cases x.gpsAid <;> cases x.gpsIntermittent <;> simp
  · intro h hf; simp only at h hf; subst h; subst hf
    cases x.gpsAid <;> cases x.gpsIntermittent <;> simp <;> ring
  · intro h hf; simp only at h; subst h
    cases x.gpsAid <;> simp [hf] <;> ring
  · intro h; simp only at h; subst h
    cases x.gpsAid <;> cases x.gpsIntermittent <;> by_cases h2 : x.tDelayedEv ≤ x.tNewestEv <;> simp [h2]
  · rintro (⟨h, hf⟩ | ⟨h, hf⟩ | h)
    · simp only at h hf; subst h; subst hf
      cases x.gpsAid <;> cases x.gpsIntermittent <;> simp
    · simp only at h; subst h
      cases x.gpsAid <;> simp [hf]
    · subst h
      cases x.gpsAid <;> cases x.gpsIntermittent <;> simp
  · rintro ⟨a, b⟩
    simp [a, b]
  · intro h
    have : (x.gpsAid && !x.gpsIntermittent) = false := by
      rw [← Bool.not_eq_true]; simpa using h
    simp [this]

/-- **C94 (fault).** A timeout declares the barometer faulty exactly when it switches from barometer to GPS; in every other case the fault state stays. -/
theorem height_timeout_fault (x : HIn) (s : HSt)
    (ht : isTimedOut x.now s.tHgt 5000000 = true ∨ isTimedOut x.now x.tGoodVert x.badAccDelay = true) :
    (s.fl.baro = true → Spec.afterTimeout x s = some .gps → (heightTimeouts x s).1.baroFaulty = true) ∧
    (¬ (s.fl.baro = true ∧ Spec.afterTimeout x s = some .gps) → (heightTimeouts x s).1.baroFaulty = s.baroFaulty) := by
  have hcond : (isTimedOut x.now s.tHgt 5000000 || isTimedOut x.now x.tGoodVert x.badAccDelay) = true := by
    rcases ht with h | h <;> simp [h]
  have hr : ∀ t, (resetHeight x t).baroFaulty = t.baroFaulty := fun t => (resetHeight_frame x t).2.2.1
  have hg : ∀ t, (startGps x t).baroFaulty = t.baroFaulty := by
    intro t; unfold startGps; simp only; split <;> rfl
  have hb : ∀ t, (startBaro x t).baroFaulty = t.baroFaulty := fun t => rfl
  have fin : ∀ r : HSt × Bool, (if r.2 = true then ({ resetHeight x { r.1 with warn := true } with tHgt := x.now }, true) else (r.1, false) : HSt × Bool).1.baroFaulty =
      r.1.baroFaulty := by
    rintro ⟨r1, r2⟩
    cases r2
    · rfl
    · exact hr { r1 with warn := true }
  unfold heightTimeouts
  simp only [hcond, if_true]
  rw [fin]
  by_cases b : s.fl.baro = true
  · have hafter : Spec.afterTimeout x s = some .gps ↔
        (!x.gpsIntermittent && ((decide (x.gpsVaccNew < x.reqVacc) && !isRecent x.now x.tBadVert 10000000) || s.baroFaulty)) = true := by
      unfold Spec.afterTimeout
      rw [if_pos b]
      constructor
      · intro h
        split at h
        · rename_i hc
          obtain ⟨h1, h2⟩ := hc
          rcases h2 with ⟨h2, h3⟩ | h2
          · simp [h1, h2, h3]
          · simp [h1, h2]
        · split at h <;> exact absurd h (by simp)
      · intro h
        rw [Bool.and_eq_true, Bool.or_eq_true, Bool.and_eq_true, decide_eq_true_eq] at h
        obtain ⟨h1, h2⟩ := h
        rw [if_pos ⟨by simpa using h1, h2.imp (fun ⟨u, v⟩ => ⟨u, by simpa using v⟩) id⟩]
    rw [if_pos b, hafter]
    by_cases c : (!x.gpsIntermittent && ((decide (x.gpsVaccNew < x.reqVacc) && !isRecent x.now x.tBadVert 10000000) || s.baroFaulty)) = true
    · rw [if_pos c]
      refine ⟨fun _ _ => by rw [hg], fun h => absurd ⟨b, c⟩ h⟩
    · rw [if_neg c]
      refine ⟨fun _ h => absurd h c, fun _ => ?_⟩
      split <;> rfl
  · rw [if_neg b]
    refine ⟨fun h => absurd h b, fun _ => ?_⟩
    have pf : ∀ (c : Bool) (p q : HSt × Bool), p.1.baroFaulty = s.baroFaulty → q.1.baroFaulty = s.baroFaulty →
        (if c = true then p else q : HSt × Bool).1.baroFaulty = s.baroFaulty := by
      intro c p q h1 h2; cases c <;> simpa using ‹_›
    refine pf _ _ _ (pf _ _ _ (hb s) (pf _ _ _ rfl rfl)) (pf _ _ _ (pf _ _ _ rfl (pf _ _ _ (hb s) rfl))
      (pf _ _ _ (pf _ _ _ rfl (pf _ _ _ (hb s) rfl)) rfl))

/-- **C95 (finding).** With the barometer as primary source, a timeout switch from barometer to GPS height lasts only until the
next step in which a barometer sample arrives: the fault marking is recomputed from the data rate (EKF/control.cpp:88) and the
selection returns to the barometer. -/
theorem baro_timeout_switch_undone (x y : HIn) (s : HSt) (hb : Spec.only s.fl .baro) (hf : s.baroFaulty = false)
    (ht : isTimedOut x.now s.tHgt 5000000 = true) (hg : x.gpsIntermittent = false) (hacc : x.gpsVaccNew < x.reqVacc)
    (hbad : isRecent x.now x.tBadVert 10000000 = false) (hv : y.vdist = 0) (hy : y.baroReady = true) (ha : ¬ Spec.aid y) :
    Spec.only (heightTimeouts x s).1.fl .gps ∧
    Spec.only (controlHeight y { (heightTimeouts x s).1 with baroFaulty := false }).1.fl .baro := by
  constructor
  · refine (height_timeout_source x s (le_of_eq (only_sources hb)) (Or.inl ht)).2 .gps ?_
    have : s.fl.baro = true := by unfold Spec.only at hb; rw [hb]
    unfold Spec.afterTimeout
    rw [if_pos this, if_pos ⟨hg, Or.inl ⟨hacc, hbad⟩⟩]
  · rw [controlHeight_fl]
    exact ((select_baro_primary y _ ⟨by rw [hv]; decide, by rw [hv]; decide, by rw [hv]; decide⟩).2.1 ⟨ha, hy, rfl⟩).1

/-- **C92 (finding, stale vision).** In vision height mode a height observation is produced at every step even if no new vision
sample has arrived, and it is the old one. -/
theorem stale_vision_fused (x : HIn) (s : HSt) (hv : x.vdist = 3) (he : Spec.only s.fl .ev) :
    ∃ o, (controlHeight x s).2 = some o ∧ o.src = .ev ∧ o.innov = s.posD - x.evDelayed := by
  have hev : s.fl.ev = true := by unfold Spec.only at he; rw [he]
  have hsel := (select_ev_primary x s hv).2.1 hev
  obtain ⟨h1, -, h3⟩ := controlHeight_fused x s
  have hfl : (controlHeight x s).1.fl = s.fl := by rw [controlHeight_fl, hsel]
  have hpos : (controlHeight x s).1.posD = s.posD := by
    rw [h1, hsel]; unfold updateBaroOffset; split <;> rfl
  have hns : (controlHeight x s).1.fl.rng = false := by rw [hfl]; unfold Spec.only at he; rw [he]
  have := h3 (fun h => by rw [hns] at h; exact absurd h.1 (by simp))
  rw [hsel] at this
  simp only [if_true] at this
  rw [this]
  unfold heightObs
  have hfl' : (controlHeight x s).1.fl = ⟨false, false, false, true⟩ := by rw [hfl]; exact he
  refine ⟨⟨.ev, s.posD - x.evDelayed, max x.evGate 1, max x.evVar (sq (1 / 100))⟩, ?_, rfl, rfl⟩
  rw [hfl']; simp [hpos]

/-! ## Non-vacuity -/

/-- a step at 20 s with GPS as primary source, fresh GPS and barometer data and no range finder -/
noncomputable def exHIn : HIn where
  vdist := 1
  rangeAid := 0
  now := 20000000
  prev := ⟨true, false, false, false⟩
  gpsAid := true
  inAir := true
  baroReady := true
  gpsReady := true
  gpsIntermittent := false
  gpsChecksPassed := true
  rngDataHealthy := false
  rngHealthy := false
  rngRegular := false
  rngAidSuitable := false
  terrainValid := false
  terrainVpos := 0
  dist := 2
  cosTilt := 1
  clearance := 1 / 10
  tLastEv := 0
  tNewestEv := 0
  evNewest := 0
  evDelayed := 0
  tDelayedEv := 0
  evVar := 1
  gpsHgt := 500
  gpsVacc := 1
  gpsHgtNew := 500
  gpsVaccNew := 1
  gpsSaccNew := 1
  gpsVelDNew := 0
  gpsAltRef := 490
  reqVacc := 8
  baroHgt := 11
  baroHgtNew := 11
  dtBaro := 50000
  baroNoise := 2
  baroGate := 5
  gpsPosNoise := 1 / 2
  posNoaidNoise := 10
  rangeNoise := 1 / 10
  rangeNoiseScaler := 0
  rangeGate := 5
  evGate := 5
  gndEffectDeadzone := 5
  tGndEffect := 0
  tBadVert := 0
  tGoodVert := 20000000
  badAccDelay := 500000

/-- barometer mode, nothing fused for 10 s -/
noncomputable def exHSt : HSt where
  fl := ⟨true, false, false, false⟩
  gndEffect := true
  offset := 0
  baroOffset := 1
  tHgt := 10000000
  baroFaulty := false
  warn := false
  posD := -10
  velD := 0
  varPos := 1
  varVel := 1

/-- GPS height in use; GPS aiding stops; ten good control steps later there is still no height source -/
example : Spec.none (hRun { exHSt with fl := ⟨false, true, false, false⟩ } (HOp.stopGps :: List.replicate 10 (HOp.control exHIn))).fl ∧
    Spec.GpsPrimary exHIn ∧ exHIn.gpsIntermittent = false ∧ exHIn.gpsChecksPassed = true := by
  have hx : Spec.GpsPrimary exHIn := ⟨rfl, by simp [exHIn]⟩
  have hc : ∀ n s, Spec.Continuation s (List.replicate n (HOp.control exHIn)) := by
    intro n
    induction n with
    | zero => intro s; trivial
    | succ n ih => intro s; exact ⟨hx, rfl, ih _⟩
  have h0 := stop_gps_no_source { exHSt with fl := ⟨false, true, false, false⟩ } rfl
  have hrun : ∀ s l, hRun s (HOp.stopGps :: l) = hRun (stopGpsPos s) l := fun _ _ => rfl
  rw [hrun]
  exact ⟨(gps_height_trap (stopGpsPos { exHSt with fl := ⟨false, true, false, false⟩ }) h0 (List.replicate 10 (HOp.control exHIn)) (hc 10 _)).1, hx, rfl, rfl⟩

/-- the same starting from barometer mode would select GPS: C92 is not vacuous -/
example : Spec.only (selectHeight exHIn exHSt).1.fl .gps :=
  (select_gps_primary exHIn exHSt rfl).2.2.2.1 ⟨rfl, by simp [Spec.aid, exHIn], rfl, rfl, rfl⟩

/-- hypotheses of the timeout theorems: barometer mode, 10 s without fusion, accurate GPS -/
example : isTimedOut exHIn.now exHSt.tHgt 5000000 = true ∧ Spec.afterTimeout exHIn exHSt = some .gps := by
  refine ⟨by decide, ?_⟩
  unfold Spec.afterTimeout
  have h1 : exHSt.fl.baro = true := rfl
  have h2 : exHIn.gpsVaccNew < exHIn.reqVacc := show (1 : ℝ) < 8 by norm_num
  have h3 : exHIn.gpsIntermittent = false := rfl
  rw [if_pos h1, if_pos ⟨h3, Or.inl ⟨h2, by decide⟩⟩]

/-- hypotheses of the fault theorem -/
example : (heightTimeouts exHIn exHSt).1.baroFaulty = true := by
  refine (height_timeout_fault exHIn exHSt (Or.inl (by decide))).1 rfl ?_
  unfold Spec.afterTimeout
  have h1 : exHSt.fl.baro = true := rfl
  have h2 : exHIn.gpsVaccNew < exHIn.reqVacc := show (1 : ℝ) < 8 by norm_num
  have h3 : exHIn.gpsIntermittent = false := rfl
  rw [if_pos h1, if_pos ⟨h3, Or.inl ⟨h2, by decide⟩⟩]

/-- hypotheses of C95 -/
example : Spec.only (heightTimeouts exHIn exHSt).1.fl .gps ∧
    Spec.only (controlHeight { exHIn with vdist := 0 } { (heightTimeouts exHIn exHSt).1 with baroFaulty := false }).1.fl .baro :=
  baro_timeout_switch_undone exHIn { exHIn with vdist := 0 } exHSt rfl rfl (by decide) rfl (show (1 : ℝ) < 8 by norm_num)
    (by decide) rfl rfl (by simp [Spec.aid, exHIn])

/-- hypotheses of the observation theorems: deadzone example, innovation −10 + 11 − 1 = 0 and with 7 m instead of 11 m: −4 → 0 (deadzone 5) -/
example : baroInnov { exHIn with baroHgt := 7 } exHSt = 0 := by
  have h := (ground_effect_deadzone { exHIn with baroHgt := 7 } exHSt rfl (show (0 : ℝ) ≤ 5 by norm_num)).2
    (show (-10 : ℝ) + 7 - 1 ≤ 0 by norm_num)
  rw [h]
  show min ((-10 : ℝ) + 7 - 1 + 5) 0 = 0
  norm_num

example : ∃ o, heightObs exHIn 2 (startGps exHIn exHSt) = some o ∧ o.src = .gps ∧ o.innov = 0 := gps_switch_no_step exHIn exHSt rfl 2

example : ∃ o, heightObs { exHIn with vdist := 2, rngDataHealthy := true } 2 (selectHeight { exHIn with vdist := 2, rngDataHealthy := true } exHSt).1 = some o ∧
    o.src = .rng ∧ o.innov = 0 :=
  range_switch_no_step { exHIn with vdist := 2, rngDataHealthy := true } exHSt rfl rfl rfl rfl rfl (show (1 : ℝ) / 10 ≤ 2 by norm_num)

example : ∃ o, (controlHeight { exHIn with vdist := 3 } { exHSt with fl := ⟨false, false, false, true⟩ }).2 = some o ∧ o.src = .ev ∧ o.innov = -10 - 0 :=
  stale_vision_fused { exHIn with vdist := 3 } { exHSt with fl := ⟨false, false, false, true⟩ } rfl rfl

/-- hypotheses of the ground effect theorems: compensation is on and expires with the barometer as source, stays with GPS selected but intermittent -/
example : (controlHeight { exHIn with vdist := 0, now := 30000000, tGndEffect := 10000000 } exHSt).1.gndEffect = false ∧
    (controlHeight { exHIn with now := 30000000, tGndEffect := 10000000, gpsIntermittent := true } exHSt).1.gndEffect = true := by
  constructor
  · have h := (ground_effect_expiry { exHIn with vdist := 0, now := 30000000, tGndEffect := 10000000 } exHSt).2
      (show (0 : ℤ) ≠ 1 by decide) (show (0 : ℤ) ≠ 2 by decide) (show (0 : ℤ) ≠ 3 by decide) (by simp [Spec.aid, exHIn]) rfl rfl
    rw [← Bool.not_eq_true, h]
    rintro ⟨-, h2⟩
    exact absurd h2 (by decide)
  · rw [ground_effect_stays_in_fallback { exHIn with now := 30000000, tGndEffect := 10000000, gpsIntermittent := true } exHSt rfl rfl rfl
      (by simp [Spec.aid, exHIn]) rfl]
    rfl

end Ecl.Control
