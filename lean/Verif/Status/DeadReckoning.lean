import Verif.Basic.Time

/-!
# Dead-reckoning status (C57) — EKF/ekf_helper.cpp:1003-1024
-/

namespace Ecl.Status

/-- inputs of `update_deadreckoning_status` -/
structure DrIn where
  /-- `_time_last_imu` -/
  now : UInt64
  gps : Bool
  evPos : Bool
  evVel : Bool
  optFlow : Bool
  wind : Bool
  tHorPos : UInt64
  tHorVel : UInt64
  tDelPos : UInt64
  tFlow : UInt64
  tArsp : UInt64
  tBeta : UInt64

/-- parameters: `no_aid_timeout_max` and `valid_timeout_max`, EKF/common.h:338-340 (as converted to `uint64_t`) -/
structure DrParams where
  noAid : UInt64
  valid : UInt64

/-- members written -/
structure DrSt where
  /-- `_time_last_aiding` -/
  lastAiding : UInt64
  /-- `_is_wind_dead_reckoning` -/
  windDr : Bool
  /-- `_is_dead_reckoning` -/
  dr : Bool
  /-- `_deadreckon_time_exceeded` -/
  exceeded : Bool

/-- initial values, EKF/ekf.h:352, EKF/estimator_interface.h:334-336 -/
def drInit : DrSt := ⟨0, false, false, true⟩

/-- `update_deadreckoning_status`, EKF/ekf_helper.cpp:1003-1024 -/
def drStep (p : DrParams) (s : DrSt) (x : DrIn) : DrSt :=
  let velPos := (x.gps || x.evPos || x.evVel) &&
    (isRecent x.now x.tHorPos p.noAid || isRecent x.now x.tHorVel p.noAid || isRecent x.now x.tDelPos p.noAid)
  let flow := x.optFlow && isRecent x.now x.tFlow p.noAid
  let air := x.wind && isRecent x.now x.tArsp p.noAid && isRecent x.now x.tBeta p.noAid
  let windDr := !velPos && !flow && air
  let dr := !velPos && !flow && !air
  let last := if !dr then x.now - p.noAid else s.lastAiding
  ⟨last, windDr, dr, last == 0 || isTimedOut x.now last p.valid⟩

/-- a sequence of calls -/
def drRun (p : DrParams) (s : DrSt) (xs : List DrIn) : DrSt := xs.foldl (drStep p) s

/-! ## Specification -/

/-- an observation with time stamp `t` was fused within the last `d` microseconds -/
def Spec.within (now t d : UInt64) : Prop := now.toNat < t.toNat + d.toNat

/-- position or velocity aiding: GPS or vision in use, and a horizontal position or velocity fused recently -/
def Spec.PosVelAid (p : DrParams) (x : DrIn) : Prop :=
  (x.gps = true ∨ x.evPos = true ∨ x.evVel = true) ∧
    (Spec.within x.now x.tHorPos p.noAid ∨ Spec.within x.now x.tHorVel p.noAid ∨ Spec.within x.now x.tDelPos p.noAid)

/-- optical flow aiding -/
def Spec.FlowAid (p : DrParams) (x : DrIn) : Prop := x.optFlow = true ∧ Spec.within x.now x.tFlow p.noAid

/-- wind-relative aiding: wind estimated and both airspeed and sideslip fused recently -/
def Spec.AirAid (p : DrParams) (x : DrIn) : Prop :=
  x.wind = true ∧ Spec.within x.now x.tArsp p.noAid ∧ Spec.within x.now x.tBeta p.noAid

/-- some aiding at this step -/
def Spec.Aided (p : DrParams) (x : DrIn) : Prop := Spec.PosVelAid p x ∨ Spec.FlowAid p x ∨ Spec.AirAid p x

/-- time stamps far from the end of the 64-bit range -/
def Spec.Sane (p : DrParams) (x : DrIn) : Prop :=
  p.noAid.toNat < 2 ^ 62 ∧ p.valid.toNat < 2 ^ 62 ∧ x.now.toNat < 2 ^ 62 ∧ x.tHorPos.toNat < 2 ^ 62 ∧ x.tHorVel.toNat < 2 ^ 62 ∧
    x.tDelPos.toNat < 2 ^ 62 ∧ x.tFlow.toNat < 2 ^ 62 ∧ x.tArsp.toNat < 2 ^ 62 ∧ x.tBeta.toNat < 2 ^ 62

/-! ## Theorems -/

theorem isRecent_within {now t d : UInt64} (h1 : t.toNat < 2 ^ 62) (h2 : d.toNat < 2 ^ 62) :
    isRecent now t d = true ↔ Spec.within now t d := (timeout_meaning now t d (by omega)).2

theorem dr_flags (p : DrParams) (s : DrSt) (x : DrIn) (h : Spec.Sane p x) :
    ((drStep p s x).windDr = true ↔ ¬ Spec.PosVelAid p x ∧ ¬ Spec.FlowAid p x ∧ Spec.AirAid p x) ∧
    ((drStep p s x).dr = true ↔ ¬ Spec.Aided p x) := by
  obtain ⟨ha, hv, hn, h1, h2, h3, h4, h5, h6⟩ := h
  have e1 := isRecent_within (now := x.now) h1 ha
  have e2 := isRecent_within (now := x.now) h2 ha
  have e3 := isRecent_within (now := x.now) h3 ha
  have e4 := isRecent_within (now := x.now) h4 ha
  have e5 := isRecent_within (now := x.now) h5 ha
  have e6 := isRecent_within (now := x.now) h6 ha
  unfold drStep Spec.Aided Spec.PosVelAid Spec.FlowAid Spec.AirAid
  simp only [← e1, ← e2, ← e3, ← e4, ← e5, ← e6]
  constructor
  · simp only [Bool.and_eq_true, Bool.not_eq_true', ← Bool.not_eq_true, Bool.or_eq_true, and_assoc, or_assoc]
  · simp only [Bool.and_eq_true, Bool.not_eq_true', ← Bool.not_eq_true, Bool.or_eq_true, and_assoc, or_assoc, not_or]

/-- **C57.** Wind and inertial dead reckoning are never reported together, and neither is reported at a step with recent
position, velocity or flow aiding. -/
theorem dr_exclusive (p : DrParams) (s : DrSt) (x : DrIn) (h : Spec.Sane p x) :
    ¬ ((drStep p s x).windDr = true ∧ (drStep p s x).dr = true) ∧
    (Spec.PosVelAid p x ∨ Spec.FlowAid p x → (drStep p s x).windDr = false ∧ (drStep p s x).dr = false) ∧
    ((drStep p s x).windDr = true → Spec.AirAid p x) := by
  obtain ⟨h1, h2⟩ := dr_flags p s x h
  refine ⟨fun ⟨a, b⟩ => ?_, fun a => ⟨?_, ?_⟩, fun a => (h1.mp a).2.2⟩
  · exact (h2.mp b) (Or.inr (Or.inr (h1.mp a).2.2))
  · rw [← Bool.not_eq_true, h1]
    rintro ⟨b, c, -⟩
    rcases a with a | a
    · exact b a
    · exact c a
  · rw [← Bool.not_eq_true, h2]
    intro b
    rcases a with a | a
    · exact b (Or.inl a)
    · exact b (Or.inr (Or.inl a))

theorem drStep_last (p : DrParams) (s : DrSt) (x : DrIn) (h : Spec.Sane p x) :
    (Spec.Aided p x → (drStep p s x).lastAiding = x.now - p.noAid) ∧
    (¬ Spec.Aided p x → (drStep p s x).lastAiding = s.lastAiding) := by
  have h2 := (dr_flags p s x h).2
  have hl : (drStep p s x).lastAiding = if !(drStep p s x).dr then x.now - p.noAid else s.lastAiding := rfl
  constructor
  · intro a
    rw [hl, if_pos]
    rw [Bool.not_eq_true', ← Bool.not_eq_true, h2]; exact fun b => b a
  · intro a
    rw [hl, if_neg]
    rw [h2.mpr a]; simp

theorem drStep_exceeded (p : DrParams) (s : DrSt) (x : DrIn) :
    (drStep p s x).exceeded = ((drStep p s x).lastAiding == 0 || isTimedOut x.now (drStep p s x).lastAiding p.valid) := rfl

theorem drRun_last (p : DrParams) (post : List DrIn) (hs : ∀ x ∈ post, Spec.Sane p x) (hp : ∀ x ∈ post, ¬ Spec.Aided p x) (s : DrSt) :
    (drRun p s post).lastAiding = s.lastAiding := by
  induction post generalizing s with
  | nil => rfl
  | cons x xs ih =>
    unfold drRun at *
    rw [List.foldl_cons, ih (fun y hy => hs y (List.mem_cons_of_mem _ hy)) (fun y hy => hp y (List.mem_cons_of_mem _ hy)),
      (drStep_last p s x (hs x (List.mem_cons_self))).2 (hp x (List.mem_cons_self))]

/-- **C57 (before any aiding).** As long as there has never been any aiding the solution is reported as dead reckoning for too
long. -/
theorem dr_exceeded_initially (p : DrParams) (xs : List DrIn) (x : DrIn) (hs : ∀ y ∈ xs ++ [x], Spec.Sane p y)
    (hp : ∀ y ∈ xs ++ [x], ¬ Spec.Aided p y) : (drRun p drInit (xs ++ [x])).exceeded = true := by
  have hl := drRun_last p (xs ++ [x]) hs hp drInit
  have e : drRun p drInit (xs ++ [x]) = drStep p (drRun p drInit xs) x := by unfold drRun; rw [List.foldl_append]; rfl
  rw [e] at hl ⊢
  rw [drStep_exceeded, hl]
  rfl

/-- **C57 (history).** Let `a` be the last step with aiding in an arbitrary history (at a time later than the aiding
window). At any later step `x` the error is reported iff more than `valid_timeout_max` has elapsed since the start of the
aiding window of `a`, that is since `a.now - no_aid_timeout_max`. -/
theorem dr_history (p : DrParams) (s : DrSt) (a x : DrIn) (post : List DrIn) (hsa : Spec.Sane p a) (hsx : Spec.Sane p x)
    (hs : ∀ y ∈ post, Spec.Sane p y) (ha : Spec.Aided p a) (hp : ∀ y ∈ post, ¬ Spec.Aided p y) (hx : ¬ Spec.Aided p x)
    (hlate : p.noAid.toNat < a.now.toNat) (pre : List DrIn) :
    (drRun p s (pre ++ a :: post ++ [x])).exceeded = true ↔ (a.now.toNat - p.noAid.toNat) + p.valid.toNat < x.now.toNat := by
  have e : drRun p s (pre ++ a :: post ++ [x]) = drStep p (drRun p (drStep p (drRun p s pre) a) post) x := by
    unfold drRun; rw [List.foldl_append, List.foldl_append]; rfl
  rw [e, drStep_exceeded]
  have hl : (drStep p (drRun p (drStep p (drRun p s pre) a) post) x).lastAiding = a.now - p.noAid := by
    rw [(drStep_last p _ x hsx).2 hx, drRun_last p post hs hp, (drStep_last p _ a hsa).1 ha]
  rw [hl]
  have hsub : (a.now - p.noAid).toNat = a.now.toNat - p.noAid.toNat :=
    u64_sub_toNat_of_le (by rw [u64_le_iff]; omega)
  have hne : (a.now - p.noAid == 0) = false := by
    rw [beq_eq_false_iff_ne]
    intro h
    have := congrArg UInt64.toNat h
    rw [hsub] at this
    have h0 : (0 : UInt64).toNat = 0 := rfl
    rw [h0] at this
    omega
  obtain ⟨_, hv, hn, _⟩ := hsa
  rw [hne, Bool.false_or, (timeout_meaning x.now _ p.valid (by rw [hsub]; omega)).1, hsub]

/-- **C57 (while aided).** At a step with aiding the error is not reported, if the validity timeout is at least the aiding
window and the filter time is not exactly equal to the window. -/
theorem dr_aided_valid (p : DrParams) (s : DrSt) (a : DrIn) (hsa : Spec.Sane p a) (ha : Spec.Aided p a)
    (hv : p.noAid.toNat ≤ p.valid.toNat) (hne : a.now ≠ p.noAid) : (drStep p s a).exceeded = false := by
  rw [drStep_exceeded, (drStep_last p s a hsa).1 ha]
  have h0 : (a.now - p.noAid == 0) = false := by
    rw [beq_eq_false_iff_ne]
    intro h
    apply hne
    have := congrArg (· + p.noAid) h
    simpa using this
  rw [h0, Bool.false_or, ← Bool.not_eq_true, isTimedOut_iff, u64_lt_iff, UInt64.toNat_add, UInt64.toNat_sub]
  obtain ⟨h1, h2, h3, -⟩ := hsa
  omega

/-- **C57 (finding).** If the first aiding happens exactly when the filter time equals the aiding window, the time stamp
becomes zero, which is the marker for "never aided": the error is reported although the filter is aided. -/
theorem dr_zero_marker (p : DrParams) (s : DrSt) (a : DrIn) (hsa : Spec.Sane p a) (ha : Spec.Aided p a) (h : a.now = p.noAid) :
    (drStep p s a).exceeded = true ∧ (drStep p s a).dr = false := by
  constructor
  · rw [drStep_exceeded, (drStep_last p s a hsa).1 ha, h, UInt64.sub_self]; rfl
  · rw [← Bool.not_eq_true, (dr_flags p s a hsa).2]; exact fun b => b ha

/-- non-vacuity: GPS in use with a position fused 0.1 s ago at 8 s is aided; at 12 s without anything since, it is not, and
the error is not yet reported (1 s window, 5 s validity); one microsecond later it is -/
example :
    let p : DrParams := ⟨1000000, 5000000⟩
    let a : DrIn := ⟨8000000, true, false, false, false, false, 7900000, 0, 0, 0, 0, 0⟩
    Spec.Sane p a ∧ Spec.Aided p a ∧ ¬ Spec.Aided p { a with now := 12000000 } ∧
      (drRun p drInit [a, { a with now := 12000000 }]).exceeded = false ∧
      (drRun p drInit [a, { a with now := 12000001 }]).exceeded = true := by
  refine ⟨?_, ?_, ?_, by decide, by decide⟩
  · unfold Spec.Sane; decide
  · left; exact ⟨Or.inl rfl, Or.inl (by unfold Spec.within; decide)⟩
  · unfold Spec.Aided Spec.PosVelAid Spec.FlowAid Spec.AirAid Spec.within; decide

/-- **C57 (start-up).** Before the first update neither form of dead reckoning is reported, and the dead-reckoning time counts as exceeded. -/
theorem dr_fresh : drInit.windDr = false ∧ drInit.dr = false ∧ drInit.exceeded = true ∧ drInit.lastAiding = 0 := ⟨rfl, rfl, rfl, rfl⟩

end Ecl.Status
