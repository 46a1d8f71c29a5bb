import Verif.Aid.Frame

/-!
# Magnetometer modes (C55): one mode at a time, never together with another yaw source, never with a faulty or disabled
magnetometer
-/

namespace Ecl.Aid

/-- at most one magnetometer mode, and none together with vision or GPS yaw -/
def MagExcl (s : St) : Prop :=
  ¬ (s.magHdg = true ∧ s.mag3D = true) ∧ (s.magHdg = true ∨ s.mag3D = true → s.evYaw = false ∧ s.gpsYaw = false)

/-- no yaw source flag is switched on -/
def Down (s s' : St) : Prop :=
  (s'.magHdg = true → s.magHdg = true) ∧ (s'.mag3D = true → s.mag3D = true) ∧
  (s'.evYaw = true → s.evYaw = true) ∧ (s'.gpsYaw = true → s.gpsYaw = true)

theorem Down.refl (s : St) : Down s s := ⟨id, id, id, id⟩
theorem Down.trans {a b c : St} (h : Down a b) (k : Down b c) : Down a c :=
  ⟨fun q => h.1 (k.1 q), fun q => h.2.1 (k.2.1 q), fun q => h.2.2.1 (k.2.2.1 q), fun q => h.2.2.2 (k.2.2.2 q)⟩

theorem Down.excl {s s' : St} (h : Down s s') (k : MagExcl s) : MagExcl s' := by
  obtain ⟨h1, h2, h3, h4⟩ := h
  obtain ⟨k1, k2⟩ := k
  refine ⟨fun q => k1 ⟨h1 q.1, h2 q.2⟩, fun q => ?_⟩
  obtain ⟨a, b⟩ := k2 (q.imp h1 h2)
  constructor
  · cases c : s'.evYaw
    · rfl
    · rw [h3 c] at a; cases a
  · cases c : s'.gpsYaw
    · rfl
    · rw [h4 c] at b; cases b

theorem Down.of_eq {s s' : St} (h1 : s'.magHdg = s.magHdg) (h2 : s'.mag3D = s.mag3D) (h3 : s'.evYaw = s.evYaw)
    (h4 : s'.gpsYaw = s.gpsYaw) : Down s s' := by simp [Down, h1, h2, h3, h4]

theorem stopMag3D_off (s : St) : (stopMag3D s).mag3D = false := by
  unfold stopMag3D; split_ifs with h
  · rfl
  · simpa using h
theorem stopMag_off (s : St) : (stopMag s).mag3D = false ∧ (stopMag s).magHdg = false := by
  unfold stopMag
  refine ⟨?_, ?_⟩
  · simp [stopMag3D_off]
  · simp [stopMagHdg]

theorem stopMag_down (s : St) : Down s (stopMag s) := by
  refine ⟨?_, ?_, ?_, ?_⟩ <;> simp [stopMag_off]
theorem stopMag3D_down (s : St) : Down s (stopMag3D s) := by
  refine ⟨?_, ?_, ?_, ?_⟩ <;> simp [stopMag3D_off]

theorem resetMagHeading_down (x : In) (s : St) : Down s (resetMagHeading x s).1 := by
  unfold resetMagHeading
  split_ifs
  · exact Down.refl s
  · exact stopMag_down s
  · exact Down.of_eq (by simp) (by simp) (by simp) (by simp)
  · exact Down.of_eq (by simp) (by simp) (by simp) (by simp)
  · exact Down.refl s
  · exact Down.refl s

theorem realignYawGps_down (x : In) (s : St) : Down s (realignYawGps x s).1 := by
  unfold realignYawGps
  split_ifs
  · exact resetMagHeading_down x s
  · exact Down.of_eq (by simp) (by simp) (by simp) (by simp)

theorem down_yawReq {a s : St} {b : Bool} (h : Down a s) : Down a { s with magYawReq := b } := h
theorem down_aligned {a s : St} {b : Bool} (h : Down a s) : Down a { s with magAligned := b } := h
theorem down_yawAlign {a s : St} {b : Bool} (h : Down a s) : Down a { s with yawAlign := b } := h

theorem groundYawReset_down (x : In) (s : St) : Down s (groundYawReset x s) := by
  unfold groundYawReset
  dsimp only
  split_ifs
  · exact resetMagHeading_down x s
  · exact Down.refl s
  · exact Down.refl s
theorem airYawReset_down (x : In) (s : St) : Down s (airYawReset x s) := by
  unfold airYawReset
  dsimp only
  split_ifs
  · exact realignYawGps_down x s
  · exact resetMagHeading_down x s
  · exact Down.refl s
  · exact Down.refl s

theorem magPre_down (x : In) (s : St) :
    Down s (if x.inAir then velPosReset x (airYawReset x (checkHagl x s)) else groundYawReset x s) := by
  split_ifs
  · exact ((Down.of_eq (by simp) (by simp) (by simp) (by simp) : Down s (checkHagl x s)).trans
      (airYawReset_down x _)).trans (Down.of_eq (by simp) (by simp) (by simp) (by simp))
  · exact groundYawReset_down x s

/-- starting a mode stops the other -/
theorem startMagHdg_modes (s : St) : (startMagHdg s).magHdg = true ∧ (startMagHdg s).mag3D = false := by
  unfold startMagHdg; exact ⟨rfl, stopMag3D_off s⟩
theorem startMag3D_modes (s : St) (h : ¬ (s.magHdg = true ∧ s.mag3D = true)) :
    (startMag3D s).mag3D = true ∧ (startMag3D s).magHdg = false := by
  unfold startMag3D
  split_ifs with k
  · exact ⟨rfl, rfl⟩
  · simp at k; exact ⟨k, by simpa [k] using h⟩

theorem selectMagAuto_one (x : In) (s : St) (h : ¬ (s.magHdg = true ∧ s.mag3D = true)) :
    ((selectMagAuto x s).magHdg = !(selectMagAuto x s).mag3D) := by
  unfold selectMagAuto
  dsimp only
  split_ifs
  · have := startMag3D_modes (check3D x s) (by simpa using h); rw [this.1, this.2]; rfl
  · have := startMagHdg_modes (check3D x s); rw [this.1, this.2]; rfl

/-- mode selection leaves exactly one mode active -/
theorem selectMode_one (x : In) (s : St) (h : ¬ (s.magHdg = true ∧ s.mag3D = true)) :
    ((selectMode x s).magHdg = !(selectMode x s).mag3D) := by
  unfold selectMode
  split_ifs
  · exact selectMagAuto_one x s h
  · have := startMagHdg_modes s; rw [this.1, this.2]; rfl
  · have := startMag3D_modes s h; rw [this.1, this.2]; rfl
  · exact selectMagAuto_one x s h

theorem magWithData_excl (x : In) (s : St) (h : MagExcl s) (n : noOther s = true) : MagExcl (magWithData x s) := by
  have hn : s.evYaw = false ∧ s.gpsYaw = false := by simpa [noOther] using n
  have hp := (magPre_down x s).excl h
  have h1 := selectMode_one x _ hp.1
  refine ⟨?_, fun _ => by simp [hn]⟩
  unfold magWithData
  dsimp only
  simp only [runMagFusions_magHdg, runMagFusions_mag3D, checkInhibition_magHdg, checkInhibition_mag3D, checkDecl_magHdg,
    checkDecl_mag3D]
  rw [h1]
  simp

theorem controlMag_excl (x : In) (s : St) (h : MagExcl s) : MagExcl (controlMag x s) := by
  unfold controlMag
  split_ifs
  · exact h
  · exact h
  · exact h
  · unfold magMain
    dsimp only
    have hp : MagExcl (magPrepare x s) := (Down.of_eq (by simp) (by simp) (by simp) (by simp) : Down s _).excl h
    have ho : MagExcl (otherStopped (magPrepare x s)) :=
      (Down.of_eq (by simp) (by simp) (by simp) (by simp) : Down (magPrepare x s) _).excl hp
    split_ifs with h1 h2
    · exact (stopMag_down _).excl hp
    · exact magWithData_excl x _ ho (by simp only [Bool.and_eq_true] at h2; exact h2.1)
    · exact ho

theorem startGpsYaw_excl (s : St) : MagExcl (startGpsYaw s) := by
  unfold startGpsYaw
  refine ⟨?_, ?_⟩ <;> simp [stopMag3D_off, stopMagHdg]
theorem startEvYaw_excl (s : St) : MagExcl (startEvYaw s) := by
  unfold startEvYaw
  refine ⟨?_, ?_⟩ <;> simp [stopMag3D_off, stopMagHdg]

theorem controlGpsYaw_excl (x : In) (s : St) (h : MagExcl s) : MagExcl (controlGpsYaw x s) := by
  have hu : MagExcl (gpsYawUse x s) := by
    unfold gpsYawUse
    split_ifs
    · exact h
    · exact h
    · exact startGpsYaw_excl _
    · exact h
    · exact h
    · exact h
  have hf : ∀ (t : St) (b : Bool), MagExcl t → MagExcl { t with gpsYawFaulty := b, gpsYaw := false } :=
    fun t b k => (show Down t { t with gpsYawFaulty := b, gpsYaw := false } from ⟨id, id, id, fun q => by cases q⟩).excl k
  unfold controlGpsYaw
  dsimp only
  split_ifs
  · exact hf s s.gpsYawFaulty h
  · exact hf _ true hu
  · exact hu

theorem gpsHeading_down (x : In) (s : St) : Down s (gpsHeading x s) := by
  have hd : Down s (resetMagHeading x { s with evYaw := false }).1 :=
    (show Down s { s with evYaw := false } from ⟨id, id, fun q => (by cases q), id⟩).trans (resetMagHeading_down x _)
  unfold gpsHeading
  dsimp only
  split_ifs
  · exact hd
  · exact hd
  · exact Down.refl s

theorem gpsStart_down (x : In) (s : St) : Down s (gpsStart x s) := by
  unfold gpsStart
  dsimp only
  split_ifs
  · exact (gpsHeading_down x s).trans (Down.of_eq (by simp) (by simp) (by simp) (by simp))
  · exact gpsHeading_down x s
  · exact Down.refl s
  · exact Down.refl s
  · exact Down.refl s

theorem stopGps_down (s : St) : Down s (stopGps s) := ⟨id, id, id, fun q => by cases q⟩

theorem gpsFailing_down (x : In) (s : St) : Down s (gpsFailing x s) := by
  unfold gpsFailing
  dsimp only
  split_ifs
  · exact (stopGps_down s).trans (Down.of_eq (by simp) (by simp) (by simp) (by simp))
  · exact stopGps_down s
  · exact Down.refl s

theorem gpsTimeoutReset_down (x : In) (s : St) : Down s (gpsTimeoutReset x s) := by
  unfold gpsTimeoutReset
  dsimp only
  split_ifs
  · exact (realignYawGps_down x s).trans (Down.of_eq (by simp) (by simp) (by simp) (by simp))
  · exact Down.of_eq (by simp) (by simp) (by simp) (by simp)

theorem gpsResets_down (x : In) (s : St) : Down s (gpsResets x s) := by
  unfold gpsResets
  split_ifs
  · exact Down.of_eq (by simp) (by simp) (by simp) (by simp)
  · exact gpsTimeoutReset_down x s
  · exact Down.refl s
  · exact Down.refl s

theorem controlGps_excl (x : In) (s : St) (h : MagExcl s) : MagExcl (controlGps x s) := by
  unfold controlGps
  split_ifs
  · have h1 := controlGpsYaw_excl x s h
    have h2 := (gpsFailing_down x _).excl ((gpsStart_down x _).excl h1)
    have hg : ∀ t, Down t (gsfAlign x t) := fun t => Down.of_eq (by simp) (by simp) (by simp) (by simp)
    have hf : ∀ t, Down t (gpsFuse x t) := fun t => Down.of_eq (by simp) (by simp) (by simp) (by simp)
    exact (hf _).excl ((gpsResets_down x _).excl ((hg _).excl h2))
  · exact (stopGps_down s).excl h
  · exact (stopGps_down s).excl h
  · exact h

theorem flowStart_down (x : In) (s : St) : Down s (flowStart x s) := by
  unfold flowStart
  dsimp only
  split_ifs
  · exact (resetMagHeading_down x s).trans (Down.of_eq (by simp) (by simp) (by simp) (by simp))
  · exact resetMagHeading_down x s
  · exact resetMagHeading_down x s
  · exact Down.of_eq (by simp) (by simp) (by simp) (by simp)
  · exact Down.refl s
  · exact Down.refl s
  · exact Down.refl s

theorem controlFlow_down (x : In) (s : St) : Down s (controlFlow x s) := by
  have h1 : Down s (flowQuality x (flowMotion x s)) := Down.of_eq (by simp) (by simp) (by simp) (by simp)
  unfold controlFlow
  dsimp only
  split_ifs
  · exact h1
  · exact (h1.trans (flowStart_down x { flowQuality x (flowMotion x s) with
      flowInh := flowInhibit x (flowQuality x (flowMotion x s)) })).trans
      (Down.of_eq (by simp) (by simp) (by simp) (by simp))
  · exact h1
  · exact h1

theorem evYawStart_excl (x : In) (s : St) (h : MagExcl s) : MagExcl (evYawStart x s) := by
  unfold evYawStart
  split_ifs
  · exact startEvYaw_excl s
  · exact h
  · exact h

theorem controlEv_excl (x : In) (s : St) (h : MagExcl s) : MagExcl (controlEv x s) := by
  have h1 : MagExcl (evStart x s) := (Down.of_eq (by simp) (by simp) (by simp) (by simp) : Down s _).excl h
  have h2 := evYawStart_excl x _ h1
  have h3 : MagExcl (evVelUse x (evPosUse x (evYawStart x (evStart x s)))) :=
    (Down.of_eq (by simp) (by simp) (by simp) (by simp) : Down (evYawStart x (evStart x s)) _).excl h2
  unfold controlEv
  dsimp only
  split_ifs
  · exact h3
  · exact h3
  · exact (show Down s ((stopEv s).evt .visionStopped) from ⟨id, id, fun q => (by cases q), id⟩).excl h
  · exact h

theorem tiltAlign_down (x : In) (s : St) : Down s (tiltAlign x s) := by
  unfold tiltAlign
  dsimp only
  split_ifs
  · exact (show Down s { s with tilt := true } from ⟨id, id, id, id⟩).trans (resetMagHeading_down x _)
  · exact Down.refl s

theorem step_excl (x : In) (s : St) (h : MagExcl s) : MagExcl (step x s) := by
  unfold step
  dsimp only
  have h0 : MagExcl { s with log := [], evts := [] } := h
  have k1 : ∀ t, Down t (requests x t) := fun t => Down.of_eq (by simp) (by simp) (by simp) (by simp)
  have k2 : ∀ t, Down t (flowArrival x t) := fun t => Down.of_eq (by simp) (by simp) (by simp) (by simp)
  have k3 : ∀ t, Down t (controlDrag x (controlBeta x (controlAir x t))) :=
    fun t => Down.of_eq (by simp) (by simp) (by simp) (by simp)
  have k4 : ∀ t, Down t (controlFake x (controlAux x t)) := fun t => Down.of_eq (by simp) (by simp) (by simp) (by simp)
  have h3 := (k2 _).excl ((tiltAlign_down x _).excl ((k1 _).excl h0))
  have h4 := controlGps_excl x _ ((controlFlow_down x _).excl (controlMag_excl x _ h3))
  exact (k4 _).excl (controlEv_excl x _ ((k3 _).excl h4))

/-- **C55.** In every history that starts without an active magnetometer mode, whatever the sensors deliver and however the
parameters change: heading and three-axis fusion are never active together, and neither is active together with vision yaw or
GPS yaw. -/
theorem modes_exclusive (s : St) (h : s.magHdg = false ∧ s.mag3D = false) (xs : List In) :
    let r := run s xs
    ¬ (r.magHdg = true ∧ r.mag3D = true) ∧
    (r.magHdg = true ∨ r.mag3D = true → r.evYaw = false ∧ r.gpsYaw = false) := by
  have h0 : MagExcl s := by simp [MagExcl, h]
  clear h
  intro r
  change MagExcl (run s xs)
  clear r
  induction xs generalizing s with
  | nil => exact h0
  | cons x xs ih => exact ih (step x s) (step_excl x s h0)

end Ecl.Aid
