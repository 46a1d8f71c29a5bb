import Verif.Aid.MagProps

/-!
# Magnetometer control: disabled and faulty magnetometer, selected mode, order of the fusions (C55)
-/

namespace Ecl.Aid

theorem mem_magFuse {l : List Act} (h : l.countP isMagFuse = 0) : Act.fuseMag ∉ l ∧ ∀ n, Act.fuseDecl n ∉ l := by
  rw [List.countP_eq_zero] at h
  exact ⟨fun q => h _ q rfl, fun n q => h _ q rfl⟩

theorem mem_heading {l : List Act} (h : l.countP isHeading = 0) : Act.fuseHeading ∉ l := by
  rw [List.countP_eq_zero] at h
  exact fun q => h _ q rfl

/-! ### The state before and after the magnetometer part of a step -/

/-- state on entry of `controlMag` -/
def stMag (x : In) (s : St) : St := flowArrival x (tiltAlign x (requests x { s with log := [], evts := [] }))
/-- state after the parts that follow `controlMag` -/
def stRest (x : In) (s : St) : St :=
  controlFake x (controlAux x (controlEv x (controlDrag x (controlBeta x (controlAir x (controlGps x (controlFlow x s)))))))

theorem step_eq (x : In) (s : St) : step x s = stRest x (controlMag x (stMag x s)) := rfl

theorem stMag_down (x : In) (s : St) : Down s (stMag x s) := by
  unfold stMag
  have k1 : ∀ t, Down t (requests x t) := fun t => Down.of_eq (by simp) (by simp) (by simp) (by simp)
  have k2 : ∀ t, Down t (flowArrival x t) := fun t => Down.of_eq (by simp) (by simp) (by simp) (by simp)
  exact (show Down s { s with log := [], evts := [] } from Down.refl s).trans
    ((k1 _).trans ((tiltAlign_down x _).trans (k2 _)))

theorem stMag_counts (x : In) (s : St) : (stMag x s).log.countP isMagFuse = 0 ∧ (stMag x s).log.countP isHeading = 0 ∧
    (stMag x s).log.countP isGsf = 0 ∧ (stMag x s).log.countP isFix = 0 := by
  unfold stMag; simp

theorem stRest_magFuse (x : In) (s : St) : (stRest x s).log.countP isMagFuse = s.log.countP isMagFuse := by
  unfold stRest; simp

/-! ### Modes are only switched on in `selectMode` -/

/-- no magnetometer mode is switched on -/
def MagDown (s s' : St) : Prop := (s'.magHdg = true → s.magHdg = true) ∧ (s'.mag3D = true → s.mag3D = true)
theorem Down.mag {s s' : St} (h : Down s s') : MagDown s s' := ⟨h.1, h.2.1⟩
theorem MagDown.trans {a b c : St} (h : MagDown a b) (k : MagDown b c) : MagDown a c :=
  ⟨fun q => h.1 (k.1 q), fun q => h.2 (k.2 q)⟩
theorem MagDown.refl (s : St) : MagDown s s := ⟨id, id⟩
theorem MagDown.of_eq {s s' : St} (h1 : s'.magHdg = s.magHdg) (h2 : s'.mag3D = s.mag3D) : MagDown s s' := by
  simp [MagDown, h1, h2]
theorem MagDown.off {s s' : St} (h : MagDown s s') (k : s.magHdg = false ∧ s.mag3D = false) :
    s'.magHdg = false ∧ s'.mag3D = false := by
  constructor
  · cases c : s'.magHdg
    · rfl
    · rw [← h.1 c]; exact k.1
  · cases c : s'.mag3D
    · rfl
    · rw [← h.2 c]; exact k.2

theorem stop_both (s : St) : (stopMag3D (stopMagHdg s)).magHdg = false ∧ (stopMag3D (stopMagHdg s)).mag3D = false :=
  ⟨by simp [stopMagHdg], stopMag3D_off _⟩

theorem controlGpsYaw_magDown (x : In) (s : St) : MagDown s (controlGpsYaw x s) := by
  have hs : ∀ t, MagDown t (startGpsYaw t) := by
    intro t; unfold startGpsYaw
    refine ⟨fun q => ?_, fun q => ?_⟩
    · have := (stop_both { t with magDec := false, evYaw := false }).1
      simp only [this] at q; cases q
    · have := (stop_both { t with magDec := false, evYaw := false }).2
      simp only [this] at q; cases q
  have hu : MagDown s (gpsYawUse x s) := by
    unfold gpsYawUse
    split_ifs
    · exact MagDown.refl s
    · exact MagDown.refl s
    · exact hs { s.act (.yawReset .gpsAntenna) with tGpsYaw := x.now, yawAlign := true }
    · exact MagDown.refl s
    · exact MagDown.refl s
    · exact MagDown.refl s
  unfold controlGpsYaw
  dsimp only
  split_ifs
  · exact MagDown.refl s
  · exact hu
  · exact hu

theorem controlGps_magDown (x : In) (s : St) : MagDown s (controlGps x s) := by
  unfold controlGps
  split_ifs
  · have hg : ∀ t, MagDown t (gsfAlign x t) := fun t => MagDown.of_eq (by simp) (by simp)
    have hf : ∀ t, MagDown t (gpsFuse x t) := fun t => MagDown.of_eq (by simp) (by simp)
    exact (controlGpsYaw_magDown x s).trans ((gpsStart_down x _).mag.trans ((gpsFailing_down x _).mag.trans
      ((hg _).trans ((gpsResets_down x _).mag.trans (hf _)))))
  · exact (stopGps_down s).mag
  · exact (stopGps_down s).mag
  · exact MagDown.refl s

theorem controlEv_magDown (x : In) (s : St) : MagDown s (controlEv x s) := by
  have h1 : MagDown s (evStart x s) := MagDown.of_eq (by simp) (by simp)
  have h2 : ∀ t, MagDown t (evYawStart x t) := by
    intro t; unfold evYawStart
    split_ifs
    · unfold startEvYaw
      refine ⟨fun q => ?_, fun q => ?_⟩
      · have := (stop_both { t.act (.yawReset .vision) with yawAlign := true, evYaw := true, magDec := false }).1
        simp only [evt_magHdg, this] at q; cases q
      · have := (stop_both { t.act (.yawReset .vision) with yawAlign := true, evYaw := true, magDec := false }).2
        simp only [evt_mag3D, this] at q; cases q
    · exact MagDown.refl t
    · exact MagDown.refl t
  have h3 : ∀ t, MagDown t (evVelUse x (evPosUse x t)) := fun t => MagDown.of_eq (by simp) (by simp)
  have h4 := (h1.trans (h2 _)).trans (h3 _)
  unfold controlEv
  dsimp only
  split_ifs
  · exact h4
  · exact h4
  · exact MagDown.refl s
  · exact MagDown.refl s

theorem stRest_magDown (x : In) (s : St) : MagDown s (stRest x s) := by
  unfold stRest
  have k3 : ∀ t, MagDown t (controlDrag x (controlBeta x (controlAir x t))) := fun t => MagDown.of_eq (by simp) (by simp)
  have k4 : ∀ t, MagDown t (controlFake x (controlAux x t)) := fun t => MagDown.of_eq (by simp) (by simp)
  exact (controlFlow_down x s).mag.trans ((controlGps_magDown x _).trans ((k3 _).trans ((controlEv_magDown x _).trans (k4 _))))

/-! ### Disabled magnetometer -/

theorem step_disabled (x : In) (s : St) (h : s.magHdg = false ∧ s.mag3D = false) (ht : 5 ≤ x.magType) :
    (step x s).magHdg = false ∧ (step x s).mag3D = false ∧ (step x s).log.countP isMagFuse = 0 := by
  rw [step_eq]
  have h1 := (stMag_down x s).mag.off h
  have hc : MagDown (stMag x s) (controlMag x (stMag x s)) ∧
      (controlMag x (stMag x s)).log.countP isMagFuse = (stMag x s).log.countP isMagFuse := by
    unfold controlMag
    split_ifs with a b c
    · exact ⟨MagDown.refl _, rfl⟩
    · exact ⟨MagDown.refl _, by simp [isMagFuse]⟩
    · exact ⟨MagDown.refl _, rfl⟩
    · omega
  have h2 := (stRest_magDown x _).off (hc.1.off h1)
  exact ⟨h2.1, h2.2, by rw [stRest_magFuse, hc.2]; exact (stMag_counts x s).1⟩

/-- **C55.** With the magnetometer disabled by configuration (type `NONE` or larger) throughout, no magnetometer mode is ever
active and no three-axis or declination measurement is ever fused. -/
theorem disabled_never_used (s : St) (h : s.magHdg = false ∧ s.mag3D = false) (xs : List In)
    (ht : ∀ x ∈ xs, 5 ≤ x.magType) :
    ∀ t ∈ trace s xs, t.magHdg = false ∧ t.mag3D = false ∧ Act.fuseMag ∉ t.log ∧ ∀ n, Act.fuseDecl n ∉ t.log := by
  induction xs generalizing s with
  | nil => intro t ht; cases ht
  | cons x xs ih =>
    have h1 := step_disabled x s h (ht x (by simp))
    intro t hm
    rcases List.mem_cons.mp hm with rfl | hm
    · exact ⟨h1.1, h1.2.1, mem_magFuse h1.2.2⟩
    · exact ih (step x s) ⟨h1.1, h1.2.1⟩ (fun y hy => ht y (by simp [hy])) t hm

/-! ### Faulty magnetometer -/

theorem declareFault_keeps (s : St) (h : s.magFault = true) : (declareFault s).magFault = true := by
  unfold declareFault; split_ifs
  · rfl
  · exact h
theorem courseAlign_keeps (x : In) (s : St) (h : s.magFault = true) : (courseAlign x s).magFault = true := by
  unfold courseAlign
  dsimp only
  split_ifs
  · simp only [resetMagStates_magFault, courseYaw_magFault]; exact declareFault_keeps _ h
  · simpa using h
  · simp only [resetMagStates_magFault, courseYaw_magFault]; exact declareFault_keeps _ h
  · simpa using h
theorem realign_keeps (x : In) (s : St) (h : s.magFault = true) : (realignYawGps x s).1.magFault = true := by
  unfold realignYawGps
  split_ifs
  · simpa using h
  · exact courseAlign_keeps x s h
theorem gsf_keeps (x : In) (s : St) (h : s.magFault = true) : (resetYawToGsf x s).1.magFault = true := by
  unfold resetYawToGsf
  dsimp only
  split_ifs
  · exact h
  · simpa using h
  · rfl

theorem controlMag_fault (x : In) (s : St) (h : s.magFault = true) : (controlMag x s).magFault = true := by
  unfold controlMag
  split_ifs
  · exact h
  · exact h
  · exact h
  · unfold magMain
    dsimp only
    rw [if_pos (by simp [h])]
    simpa using h

theorem controlGps_fault (x : In) (s : St) (h : s.magFault = true) : (controlGps x s).magFault = true := by
  unfold controlGps
  split_ifs
  · rw [gpsFuse_magFault]
    have h1 : (gsfAlign x (gpsFailing x (gpsStart x (controlGpsYaw x s)))).magFault = true := by
      have h0 : (gpsFailing x (gpsStart x (controlGpsYaw x s))).magFault = true := by simpa using h
      unfold gsfAlign
      dsimp only
      split_ifs
      · exact gsf_keeps x _ h0
      · exact gsf_keeps x _ h0
      · exact h0
    unfold gpsResets
    split_ifs
    · unfold gsfReset
      dsimp only
      split_ifs
      · exact gsf_keeps x _ h1
      · exact gsf_keeps x _ h1
    · unfold gpsTimeoutReset
      dsimp only
      split_ifs
      · simpa using realign_keeps x _ h1
      · simpa using h1
    · exact h1
    · exact h1
  · exact h
  · exact h
  · exact h

theorem step_fault (x : In) (s : St) (h : s.magFault = true) : (step x s).magFault = true := by
  rw [step_eq]
  unfold stRest
  simp only [controlFake_magFault, controlAux_magFault, controlEv_magFault, controlDrag_magFault, controlBeta_magFault,
    controlAir_magFault]
  apply controlGps_fault
  rw [controlFlow_magFault]
  apply controlMag_fault
  unfold stMag
  simpa using h

theorem step_fault_unused (x : In) (s : St) (h : s.magFault = true) (ht : x.magType < 5) :
    (step x s).magHdg = false ∧ (step x s).mag3D = false ∧ (step x s).log.countP isMagFuse = 0 := by
  have hm : (stMag x s).magFault = true := by unfold stMag; simpa using h
  have hc : controlMag x (stMag x s) = stopMag (magPrepare x (stMag x s)) := by
    unfold controlMag
    rw [if_neg (by omega), if_neg (by omega)]
    unfold magMain
    dsimp only
    rw [if_pos (by simp [hm])]
  rw [step_eq, hc]
  have h2 := (stRest_magDown x (stopMag (magPrepare x (stMag x s)))).off ⟨(stopMag_off _).2, (stopMag_off _).1⟩
  refine ⟨h2.1, h2.2, ?_⟩
  rw [stRest_magFuse]
  simp [(stMag_counts x s).1]

/-- **C55.** Once the magnetometer has been declared faulty it stays faulty for the rest of every history,; see
`fault_never_used`. -/
theorem fault_permanent (s : St) (h : s.magFault = true) (xs : List In) :
    ∀ t ∈ trace s xs, t.magFault = true := by
  induction xs generalizing s with
  | nil => intro t ht; cases ht
  | cons x xs ih =>
    intro t hm
    rcases List.mem_cons.mp hm with rfl | hm
    · exact step_fault x s h
    · exact ih _ (step_fault x s h) t hm

/-- **C55.** With a faulty magnetometer, whichever of the types AUTO … INDOOR is selected at each step, no mode is active
and nothing from the three axes is fused. -/
theorem fault_never_used (s : St) (h : s.magFault = true) (xs : List In) (ht : ∀ x ∈ xs, x.magType < 5) :
    ∀ t ∈ trace s xs, t.magHdg = false ∧ t.mag3D = false ∧ Act.fuseMag ∉ t.log ∧ ∀ n, Act.fuseDecl n ∉ t.log := by
  induction xs generalizing s with
  | nil => intro t ht; cases ht
  | cons x xs ih =>
    intro t hm
    rcases List.mem_cons.mp hm with rfl | hm
    · have := step_fault_unused x s h (ht x (by simp))
      exact ⟨this.1, this.2.1, mem_magFuse this.2.2⟩
    · exact ih _ (step_fault x s h) (fun y hy => ht y (by simp [hy])) t hm

/-! ### Selected mode and order of the fusions -/

theorem runMagFusions_log (s : St) (h : s.magHdg = !s.mag3D) : (runMagFusions s).log = s.log ++
    (if s.mag3D then
      (if s.declCovReset then [Act.fuseMag] ++ (if s.magDec then [Act.fuseDecl 50] else []) else [.fuseDecl 2, .fuseMag])
     else [.fuseHeading]) := by
  unfold runMagFusions
  cases h3 : s.mag3D
  · rw [h3] at h; simp [h]
  · cases hd : s.declCovReset
    · simp
    · cases hm : s.magDec
      · simp [hm]
      · simp [hm]

theorem startMag3D_iff (s : St) (h : ¬ (s.magHdg = true ∧ s.mag3D = true)) : (startMag3D s).mag3D = true := (startMag3D_modes s h).1

/-- suitability of three-axis fusion is refreshed while it is observable -/
theorem check3D_spec (x : In) (s : St) :
    let r := check3D x s
    r.yawObs = ((if s.yawObs then x.accKeep else x.accStart) && (s.gps || s.evPos)) ∧
    r.biasObs = (if s.biasObs then x.yawDeltaBig else x.yawRateBig) ∧
    r.tMov = (if r.biasObs || r.yawObs then x.tDel else s.tMov) ∧ r.tYaw = x.tDel := by
  intro r
  have hr : r = check3D x s := rfl
  unfold check3D at hr
  have hb : (if !s.biasObs && x.yawRateBig then true else if s.biasObs then x.yawDeltaBig else s.biasObs) =
      (if s.biasObs then x.yawDeltaBig else x.yawRateBig) := by
    cases s.biasObs <;> cases x.yawRateBig <;> simp
  dsimp only at hr
  rw [hb] at hr
  split_ifs at hr with h <;> rw [hr] <;> simp_all

/-- **C55.** With new data, an aligned yaw, a healthy magnetometer and no other yaw source, the step selects exactly one mode:
three-axis fusion for type 3D, heading for the types HEADING and INDOOR, and for AUTO (and the unused value 3) three-axis
fusion if and only if the field was aligned in this flight and three-axis fusion was observable within the last 2 s.  The
declination is fused with 0.5 rad after the field (if no GPS aiding or by configuration), or with 0.02 rad before the field
when the field covariance was reset; heading mode fuses the heading once. -/
theorem mode_selected (x : In) (s : St) (ht : x.magType < 5) (hf : s.magFault = false) (ha : s.yawAlign = true)
    (hx : MagExcl s) (ho : s.evYaw = false ∧ s.gpsYaw = false) (hd : x.magReady = true) :
    let r := controlMag x s
    (r.mag3D = true ↔ x.magType = 2 ∨ (x.magType ≠ 1 ∧ x.magType ≠ 4 ∧ r.magAligned = true ∧ (x.tDel - r.tMov).toNat < 2000000)) ∧
    r.magHdg = !r.mag3D ∧
    r.magDec = (r.mag3D && (!s.gps || x.userDecl)) ∧
    r.inhibited = ((decide (x.magType = 4) && (!s.gps && !s.evPos && !s.evVel)) || x.disturbed) ∧
    (x.inAir = false → r.magAligned = false) ∧
    ∃ pre, pre.countP isMagFuse = s.log.countP isMagFuse ∧ pre.countP isHeading = s.log.countP isHeading ∧
      (r.log = pre ++ [.fuseHeading] ∧ r.mag3D = false ∨
       r.log = pre ++ [.fuseMag] ∧ r.mag3D = true ∧ r.magDec = false ∨
       r.log = pre ++ [.fuseMag, .fuseDecl 50] ∧ r.mag3D = true ∧ r.magDec = true ∨
       r.log = pre ++ [.fuseDecl 2, .fuseMag] ∧ r.mag3D = true) := by
  set p := otherStopped (magPrepare x s) with hp
  have hpx : MagExcl p := by
    have h1 : MagExcl (magPrepare x s) := (Down.of_eq (by simp) (by simp) (by simp) (by simp) : Down s _).excl hx
    rw [hp]
    exact (Down.of_eq (by simp) (by simp) (by simp) (by simp) : Down (magPrepare x s) _).excl h1
  have hc : controlMag x s = magWithData x p := by
    unfold controlMag
    rw [if_neg (by omega), if_neg (by omega)]
    unfold magMain
    dsimp only
    rw [if_neg (by simp [hf, ha]), if_pos (by simp [noOther, ho, hd])]
  set q := (if x.inAir then velPosReset x (airYawReset x (checkHagl x p)) else groundYawReset x p) with hq
  have hqx : MagExcl q := (magPre_down x p).excl hpx
  have hqg : q.gps = s.gps ∧ q.evPos = s.evPos ∧ q.evVel = s.evVel ∧ q.magDist = x.disturbed ∧
      q.log.countP isMagFuse = s.log.countP isMagFuse ∧ q.log.countP isHeading = s.log.countP isHeading ∧
      (x.inAir = false → q.magAligned = false) := by
    have hd : p.magDist = x.disturbed ∧ (x.inAir = false → p.magAligned = false) := by
      rw [hp]; simp only [otherStopped_magDist, otherStopped_magAligned]
      unfold magPrepare; dsimp only; split_ifs with h
      · exact ⟨rfl, fun _ => rfl⟩
      · exact ⟨rfl, fun k => by simp [k] at h⟩
    rw [hq]
    split_ifs with h
    · simp [hp] at hd ⊢
      exact ⟨hd.1, fun k => by simp [k] at h⟩
    · simp [hp] at hd ⊢
      exact ⟨hd.1, hd.2⟩
  intro r
  have hr : r = runMagFusions (checkInhibition x (checkDecl x (selectMode x q))) := by
    change controlMag x s = _
    rw [hc]; rfl
  have hone := selectMode_one x q hqx.1
  set m := checkInhibition x (checkDecl x (selectMode x q)) with hm
  have hmode : r.mag3D = (selectMode x q).mag3D ∧ r.magHdg = (selectMode x q).magHdg ∧ r.tMov = (selectMode x q).tMov ∧
      r.magAligned = q.magAligned := by rw [hr, hm]; simp
  have hdec : r.magDec = ((selectMode x q).mag3D && (!s.gps || x.userDecl)) := by
    rw [hr, hm]; simp [checkDecl, hqg.1]
  have hinh : r.inhibited = ((decide (x.magType = 4) && (!s.gps && !s.evPos && !s.evVel)) || x.disturbed) := by
    rw [hr, hm, runMagFusions_inhibited]
    unfold checkInhibition
    dsimp only
    split_ifs <;> simp [shouldInhibit, hqg]
  have hauto : ∀ t : St, ¬ (t.magHdg = true ∧ t.mag3D = true) → ((selectMagAuto x t).mag3D = true ↔
      t.magAligned = true ∧ (x.tDel - (selectMagAuto x t).tMov).toNat < 2000000) := by
    intro t hx1
    have hcan : canUse3D x (check3D x t) = true ↔ t.magAligned = true ∧ (x.tDel - (check3D x t).tMov).toNat < 2000000 := by
      unfold canUse3D
      have : (2000000 : UInt64).toNat = 2000000 := rfl
      simp only [check3D_magAligned, Bool.and_eq_true, Bool.not_eq_true', decide_eq_false_iff_not, u64_le_iff, this, not_le]
    unfold selectMagAuto
    dsimp only
    split_ifs with h
    · rw [startMag3D_tMov]
      exact ⟨fun _ => hcan.mp h, fun _ => (startMag3D_modes _ (by simpa using hx1)).1⟩
    · rw [startMagHdg_tMov, (startMagHdg_modes _).2]
      exact ⟨fun k => (by cases k), fun k => absurd (hcan.mpr k) h⟩
  refine ⟨?_, by rw [hmode.2.1, hmode.1]; exact hone, by rw [hdec, hmode.1], hinh, fun k => by
    rw [hmode.2.2.2]; exact hqg.2.2.2.2.2.2 k, ?_⟩
  · rw [hmode.1, hmode.2.2.1, hmode.2.2.2]
    unfold selectMode
    split_ifs with h1 h2 h3
    · rw [hauto q hqx.1]
      constructor
      · rintro ⟨a, b⟩; exact Or.inr ⟨by omega, by omega, a, b⟩
      · rintro (a | ⟨_, _, a, b⟩)
        · omega
        · exact ⟨a, b⟩
    · rw [(startMagHdg_modes q).2]
      constructor
      · intro k; cases k
      · rintro (a | ⟨a, b, _⟩)
        · omega
        · omega
    · exact ⟨fun _ => Or.inl h3, fun _ => (startMag3D_modes q hqx.1).1⟩
    · rw [hauto q hqx.1]
      constructor
      · rintro ⟨a, b⟩; exact Or.inr ⟨by omega, by omega, a, b⟩
      · rintro (a | ⟨_, _, a, b⟩)
        · omega
        · exact ⟨a, b⟩
  · refine ⟨m.log, ?_, ?_, ?_⟩
    · rw [hm]; simp [hqg]
    · rw [hm]; simp [hqg]
    · have hlog := runMagFusions_log m (by rw [hm]; simpa using hone)
      rw [← hr] at hlog
      have e3 : r.mag3D = m.mag3D := by rw [hr]; simp
      have ed : r.magDec = m.magDec := by rw [hr]; simp
      rw [e3, ed]
      cases h3 : m.mag3D
      · left; exact ⟨by rw [hlog, h3]; simp, rfl⟩
      · rw [h3] at hlog
        cases hcv : m.declCovReset
        · right; right; right; exact ⟨by rw [hlog, hcv]; simp, rfl⟩
        · cases hdc : m.magDec
          · right; left; exact ⟨by rw [hlog, hcv, hdc]; simp, rfl, rfl⟩
          · right; right; left; exact ⟨by rw [hlog, hcv, hdc]; simp, rfl, rfl⟩

/-! ### What the control does not do -/

/-- an aligned vehicle on the ground in three-axis mode -/
def aligned3D : St := { tilt := true, yawAlign := true, mag3D := true, declCovReset := true }

/-- **C55 (finding).** A strong field disturbance does not stop three-axis fusion: the sample is fused although yaw fusion is
marked as inhibited. -/
theorem disturbed_3D_fused : ∃ (s : St) (x : In), s.mag3D = true ∧ x.disturbed = true ∧ (controlMag x s).inhibited = true ∧
    Act.fuseMag ∈ (controlMag x s).log :=
  ⟨aligned3D, { magType := 2, magReady := true, disturbed := true, tDel := 1000 }, rfl, rfl, by decide +kernel, by decide +kernel⟩

/-- **C55 (finding).** When the magnetometer is declared faulty its modes stop but the declination flag stays set. -/
theorem declination_flag_left : ∃ xs : List In, let r := run {} xs
    r.magFault = true ∧ r.mag3D = false ∧ r.magHdg = false ∧ r.magDec = true :=
  ⟨[{ magType := 2, tiltConverged := true, magReady := true, tDel := 1000, now := 2000 },
    { magType := 2, gsfOk := true, gpsReady := true, emergencyReq := true, tDel := 6000000, now := 6001000 },
    { magType := 2, magReady := true, tDel := 6010000, now := 6011000 }], by decide +kernel⟩

/-- **C55 (finding).** Changing the type to `NONE` while a mode is active leaves the mode flag set, also for a magnetometer
that is declared faulty later: the heading fusion that `NONE` performs then still reads the compass (`Verif/Fusion/Heading.lean`
uses the magnetometer whenever the heading flag is set). -/
theorem switched_to_none : ∃ xs : List In, let r := run {} xs
    xs.getLast?.map In.magType = some 5 ∧ r.magHdg = true ∧ Act.fuseHeading ∈ r.log :=
  ⟨[{ magType := 1, tiltConverged := true, magReady := true, tDel := 1000, now := 2000 },
    { magType := 5, tDel := 6000000, now := 6001000 }], by decide +kernel⟩

/-- Non-vacuity: a history that reaches heading mode and then three-axis mode in flight. -/
example : let r1 := run {} [{ tiltConverged := true, magReady := true, tDel := 1000, now := 2000 }]
    let r2 := run r1 [{ inAir := true, magReady := true, aboveMag := true, yawRateBig := true, tDel := 9000, now := 10000 }]
    r1.magHdg = true ∧ r1.mag3D = false ∧ r2.mag3D = true ∧ r2.magHdg = false ∧ r2.magAligned = true := by decide +kernel

end Ecl.Aid
