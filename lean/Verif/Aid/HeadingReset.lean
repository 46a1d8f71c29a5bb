import Verif.Aid.MagMore
import Verif.Aid.Grow

/-!
# When the heading is reset while the magnetometer is in use — EKF/mag_control.cpp:62-176
-/

namespace Ecl.Aid

/-! ## Specification -/

/-- the heading resets among the recorded operations, in order -/
def Spec.yawResets (l : List Act) : List YawSrc := l.filterMap fun a => match a with
  | .yawReset s => some s
  | _ => none

/-- the velocity and position resets among the recorded operations, in order -/
def Spec.velPosResets (l : List Act) : List Act := l.filter fun a => match a with
  | .velReset _ => true
  | .posReset _ => true
  | _ => false

/-! ## Operations after the reset -/

/-- what the mode selection and the fusions leave alone -/
structure Kept (s t : St) : Prop where
  req : t.magYawReq = s.magYawReq
  al : t.magAligned = s.magAligned
  prev : t.nonMagPrev = s.nonMagPrev
  vp : t.velposReq = s.velposReq
  yaw : Spec.yawResets t.log = Spec.yawResets s.log
  velpos : Spec.velPosResets t.log = Spec.velPosResets s.log

theorem Kept.refl (s : St) : Kept s s := ⟨rfl, rfl, rfl, rfl, rfl, rfl⟩
theorem Kept.trans {a b c : St} (h : Kept a b) (k : Kept b c) : Kept a c :=
  ⟨k.1.trans h.1, k.2.trans h.2, k.3.trans h.3, k.4.trans h.4, k.5.trans h.5, k.6.trans h.6⟩

theorem kept_startMag3D (s : St) : Kept s (startMag3D s) := by
  unfold startMag3D; split <;> constructor <;> simp [St.act, stopMagHdg, Spec.yawResets, Spec.velPosResets]
theorem kept_stopMag3D (s : St) : Kept s (stopMag3D s) := by
  unfold stopMag3D; split <;> constructor <;> simp [St.act, Spec.yawResets, Spec.velPosResets]
theorem kept_startMagHdg (s : St) : Kept s (startMagHdg s) := by
  have := kept_stopMag3D s
  exact ⟨this.1, this.2, this.3, this.4, this.5, this.6⟩
theorem kept_check3D (x : In) (s : St) : Kept s (check3D x s) := by
  unfold check3D; dsimp only
  generalize (if !s.biasObs && x.yawRateBig then true else if s.biasObs then x.yawDeltaBig else s.biasObs) = b
  split_ifs <;> constructor <;> rfl
theorem kept_selectMagAuto (x : In) (s : St) : Kept s (selectMagAuto x s) := by
  unfold selectMagAuto; dsimp only
  split
  · exact (kept_check3D x s).trans (kept_startMag3D _)
  · exact (kept_check3D x s).trans (kept_startMagHdg _)
theorem kept_selectMode (x : In) (s : St) : Kept s (selectMode x s) := by
  unfold selectMode
  split_ifs
  · exact kept_selectMagAuto x s
  · exact kept_startMagHdg s
  · exact kept_startMag3D s
  · exact kept_selectMagAuto x s
theorem kept_checkDecl (x : In) (s : St) : Kept s (checkDecl x s) := ⟨rfl, rfl, rfl, rfl, rfl, rfl⟩
theorem kept_checkInhibition (x : In) (s : St) : Kept s (checkInhibition x s) := by
  unfold checkInhibition; dsimp only
  split_ifs <;> exact ⟨rfl, rfl, rfl, rfl, rfl, rfl⟩
theorem kept_runMagFusions (s : St) : Kept s (runMagFusions s) := by
  unfold runMagFusions; dsimp only
  split_ifs <;> constructor <;> simp [St.act, Spec.yawResets, Spec.velPosResets]
theorem kept_select (x : In) (s : St) : Kept s (runMagFusions (checkInhibition x (checkDecl x (selectMode x s)))) :=
  (((kept_selectMode x s).trans (kept_checkDecl x _)).trans (kept_checkInhibition x _)).trans (kept_runMagFusions _)

theorem resetMagStates_log (s : St) : Spec.yawResets (resetMagStates s).log = Spec.yawResets s.log ∧
    Spec.velPosResets (resetMagStates s).log = Spec.velPosResets s.log := by
  unfold resetMagStates; dsimp only
  split <;> constructor <;> simp [St.act, Spec.yawResets, Spec.velPosResets]

/-- `resetMagHeading` without another heading source and with a usable magnetometer type -/
theorem resetMagHeading_cases (x : In) (s : St) (ht : x.magType < 5) (he : s.evYaw = false) (hi : s.inhibited = false) :
    let r := resetMagHeading x s
    r.2 = (decide (x.magType ≤ 2) || decide (x.tDel = s.tAlign)) ∧ r.1.velposReq = s.velposReq ∧
    Spec.yawResets r.1.log = Spec.yawResets s.log ++ (if x.magType ≤ 2 ∧ x.tDel ≠ s.tAlign then [.mag] else []) ∧
    Spec.velPosResets r.1.log = Spec.velPosResets s.log := by
  intro r
  have hr : r = resetMagHeading x s := rfl
  unfold resetMagHeading at hr
  by_cases h1 : x.tDel = s.tAlign
  · rw [if_pos h1] at hr; rw [hr]; simp [h1]
  · rw [if_neg h1, if_neg (by omega), if_neg (by simp [he])] at hr
    by_cases h2 : x.magType ≤ 2
    · rw [if_pos h2] at hr; rw [hr]
      obtain ⟨l1, l2⟩ := resetMagStates_log (s.act (.yawReset .mag))
      refine ⟨by simp [h2], by simp, ?_, ?_⟩
      · show Spec.yawResets (resetMagStates (s.act (.yawReset .mag))).log = _
        rw [l1, if_pos ⟨h2, h1⟩]; simp [St.act, Spec.yawResets]
      · show Spec.velPosResets (resetMagStates (s.act (.yawReset .mag))).log = _
        rw [l2]; simp [St.act, Spec.velPosResets]
    · rw [if_neg h2, if_neg (by simp [hi])] at hr; rw [hr]
      simp [h1, h2]

theorem courseYaw_log (s : St) : Spec.yawResets (courseYaw s).log = Spec.yawResets s.log ++
      [if s.magAligned = false then .courseError else if s.wind then .windCourse else .gpsCourse] ∧
    Spec.velPosResets (courseYaw s).log = Spec.velPosResets s.log := by
  unfold courseYaw
  by_cases h : s.magAligned = true
  · by_cases h2 : s.wind = true <;> simp [h, h2, St.act, Spec.yawResets, Spec.velPosResets]
  · simp [h, St.act, Spec.yawResets, Spec.velPosResets]

theorem declareFault_same (s : St) : (declareFault s).log = s.log ∧ (declareFault s).magAligned = s.magAligned ∧
    (declareFault s).wind = s.wind := by
  unfold declareFault; split <;> exact ⟨rfl, rfl, rfl⟩

theorem courseAlign_cases (x : In) (s : St) (ha : s.yawAlign = true) :
    let r := courseAlign x s
    let bad := x.courseBad && x.velRatioBad && s.gps
    r.velposReq = (s.velposReq || bad) ∧
    Spec.yawResets r.log = Spec.yawResets s.log ++
      (if bad then [if s.magAligned = false then .courseError else if s.wind then .windCourse else .gpsCourse] else []) ∧
    Spec.velPosResets r.log = Spec.velPosResets s.log := by
  intro r bad
  have hb : badMagYaw x s = bad := by simp [badMagYaw, bad, Bool.and_assoc]
  have hr : r = courseAlign x s := rfl
  unfold courseAlign at hr
  dsimp only at hr
  rw [hb] at hr
  cases hbb : bad
  · rw [hbb] at hr
    simp only [Bool.false_eq_true, if_false, ha, Bool.not_true, Bool.or_false] at hr
    obtain ⟨l1, l2⟩ := resetMagStates_log s
    rw [hr]
    refine ⟨by simp, ?_, l2⟩
    show Spec.yawResets (resetMagStates s).log = _
    rw [l1]; simp
  · rw [hbb] at hr
    simp only [if_true, Bool.true_or] at hr
    rw [hr]
    set u := ({ s with nBad := s.nBad + 1 } : St).evt .badYawUsingCourse with hu
    obtain ⟨l1, l2⟩ := resetMagStates_log (courseYaw (declareFault u))
    obtain ⟨c1, c2⟩ := courseYaw_log (declareFault u)
    obtain ⟨d1, d2, d3⟩ := declareFault_same u
    refine ⟨by simp, ?_, ?_⟩
    · show Spec.yawResets (resetMagStates (courseYaw (declareFault u))).log = _
      rw [l1, c1, d1, d2, d3]
      simp [hu, St.evt]
    · show Spec.velPosResets (resetMagStates (courseYaw (declareFault u))).log = _
      rw [l2, c2, d1]; simp [hu, St.evt]

/-- the state in which the heading decision is made -/
theorem controlMag_data (x : In) (s : St) (ht : x.magType < 5) (hf : s.magFault = false) (ha : s.yawAlign = true) :
    controlMag x s =
      if (!(s.evYaw || s.gpsYaw) && x.magReady) = true then magWithData x (otherStopped (magPrepare x s)) else otherStopped (magPrepare x s) := by
  unfold controlMag
  rw [if_neg (by omega), if_neg (by omega)]
  unfold magMain
  dsimp only
  rw [if_neg (by simp [hf, ha])]
  have : noOther (otherStopped (magPrepare x s)) = !(s.evYaw || s.gpsYaw) := by simp [noOther]
  rw [this]

/-- fields of the state on entry -/
theorem prepared (x : In) (s : St) :
    let p := otherStopped (magPrepare x s)
    p.magYawReq = (s.magYawReq || (!(s.evYaw || s.gpsYaw) && s.nonMagPrev)) ∧ p.nonMagPrev = (s.evYaw || s.gpsYaw) ∧
    p.magAligned = (s.magAligned && x.inAir) ∧ p.magDist = x.disturbed ∧ p.velposReq = s.velposReq ∧ p.log = s.log ∧
    p.inhibited = s.inhibited ∧ p.evYaw = s.evYaw ∧ p.tAlign = s.tAlign ∧ p.yawAlign = s.yawAlign ∧ p.gps = s.gps ∧ p.wind = s.wind := by
  intro p
  have hn : noOther (magPrepare x s) = !(s.evYaw || s.gpsYaw) := by simp [noOther]
  have h1 : (magPrepare x s).magAligned = (s.magAligned && x.inAir) ∧ (magPrepare x s).magYawReq = s.magYawReq ∧
      (magPrepare x s).nonMagPrev = s.nonMagPrev ∧ (magPrepare x s).magDist = x.disturbed ∧ (magPrepare x s).log = s.log := by
    unfold magPrepare; dsimp only
    cases h : x.inAir <;> simp
  refine ⟨?_, ?_, ?_, ?_, ?_, ?_, ?_, ?_, ?_, ?_, ?_, ?_⟩
  · show ((magPrepare x s).magYawReq || (noOther (magPrepare x s) && (magPrepare x s).nonMagPrev)) = _
    rw [hn, h1.2.1, h1.2.2.1]
  · show (!noOther (magPrepare x s)) = _
    rw [hn, Bool.not_not]
  · exact h1.1
  · exact h1.2.2.2.1
  · simp [p]
  · exact h1.2.2.2.2
  all_goals simp [p]

/-- resetting velocity and position on request -/
theorem velPosReset_cases (x : In) (s : St) :
    let r := velPosReset x s
    r.magYawReq = s.magYawReq ∧ r.magAligned = s.magAligned ∧ r.nonMagPrev = s.nonMagPrev ∧ r.velposReq = false ∧
    Spec.yawResets r.log = Spec.yawResets s.log ∧
    Spec.velPosResets r.log = Spec.velPosResets s.log ++
      (if s.velposReq then [.velReset (velSrc x s), .posReset (posSrc x s)] else []) := by
  intro r
  have hr : r = velPosReset x s := rfl
  unfold velPosReset at hr
  cases h : s.velposReq
  · simp only [h, Bool.false_eq_true, if_false] at hr
    rw [hr]; simp [h]
  · simp only [h, if_true] at hr
    rw [hr]
    have : posSrc x (resetVel x s) = posSrc x s := by simp [posSrc]
    refine ⟨by simp, by simp, by simp, rfl, ?_, ?_⟩
    · show Spec.yawResets (resetPos x (resetVel x s)).log = _
      simp [resetPos, resetVel, St.act, Spec.yawResets]
    · show Spec.velPosResets (resetPos x (resetVel x s)).log = _
      rw [if_pos rfl]
      unfold resetPos
      rw [this]
      simp [resetVel, St.act, Spec.velPosResets]

/-! ## Theorems -/

/-- **C157 (decision).** While the magnetometer is usable and the yaw aligned, a heading reset is *due* when it is authorised (the
heading fusion was not inhibited before), new magnetometer data are there, no vision or GPS-antenna heading is in use, and a reset is
requested: left over from before, because the last other heading source has just stopped, or in flight because the vehicle has
climbed 1.5 m above the terrain without in-flight alignment.  Unless due, the heading is not touched and the request is kept.  When
due, on the ground and for vehicles other than fixed wings the heading is taken from the magnetometer unless the field is disturbed;
fixed wings in flight use the GPS course if it is good enough and disagrees, else the magnetometer.  The request ends, and in flight
the alignment is noted, exactly when that succeeded. -/
theorem heading_reset_decision (x : In) (s : St) (ht : x.magType < 5) (hf : s.magFault = false) (ha : s.yawAlign = true) :
    let r := controlMag x s
    let other := s.evYaw || s.gpsYaw
    let data := !other && x.magReady
    let req := s.magYawReq || (!other && s.nonMagPrev) || (data && x.inAir && !s.magAligned && x.aboveMag)
    let due := data && req && !s.inhibited
    let compass := decide (x.magType ≤ 2) && decide (x.tDel ≠ s.tAlign)
    let compassOk := decide (x.magType ≤ 2) || decide (x.tDel = s.tAlign)
    let bad := x.courseBad && x.velRatioBad && s.gps
    r.nonMagPrev = other ∧
    (due = false → r.magYawReq = req ∧ r.magAligned = (s.magAligned && x.inAir) ∧
      Spec.yawResets r.log = Spec.yawResets s.log) ∧
    (due = true → x.inAir = false ∨ x.fixedWing = false → r.magYawReq = !(!x.disturbed && compassOk) ∧
      r.magAligned = (x.inAir && (!x.disturbed && compassOk)) ∧
      Spec.yawResets r.log = Spec.yawResets s.log ++ (if !x.disturbed && compass then [.mag] else [])) ∧
    (due = true → x.inAir = true → x.fixedWing = true → x.courseOk = false → r.magYawReq = !compassOk ∧ r.magAligned = compassOk ∧
      Spec.yawResets r.log = Spec.yawResets s.log ++ (if compass then [.mag] else [])) ∧
    (due = true → x.inAir = true → x.fixedWing = true → x.courseOk = true → r.magYawReq = false ∧ r.magAligned = true ∧
      Spec.yawResets r.log = Spec.yawResets s.log ++
        (if bad then [if s.magAligned = false then .courseError else if s.wind then .windCourse else .gpsCourse] else [])) ∧
    -- velocity and position follow a course based reset in flight
    (data = true → x.inAir = true → r.velposReq = false ∧
      ((Spec.velPosResets r.log = Spec.velPosResets s.log ++ [.velReset (velSrc x s), .posReset (posSrc x s)] ∧
          (s.velposReq || (due && x.fixedWing && x.courseOk && bad)) = true) ∨
        (Spec.velPosResets r.log = Spec.velPosResets s.log ∧ (s.velposReq || (due && x.fixedWing && x.courseOk && bad)) = false))) ∧
    (data = false ∨ x.inAir = false → r.velposReq = s.velposReq ∧ Spec.velPosResets r.log = Spec.velPosResets s.log) := by
  intro r other data req due compass compassOk bad
  obtain ⟨p1, p2, p3, p4, p5, p6, p7, p8, p9, p10, p11, p12⟩ := prepared x s
  have hc := controlMag_data x s ht hf ha
  set p := otherStopped (magPrepare x s) with hp
  have hpo : p.optFlow = s.optFlow ∧ p.evVel = s.evVel ∧ p.evPos = s.evPos := by rw [hp]; simp
  by_cases hd : data = true
  · rw [if_pos hd] at hc
    have ho : other = false := by
      cases h : other
      · rfl
      · simp [data, h] at hd
    have he : s.evYaw = false := by
      have : (s.evYaw || s.gpsYaw) = false := ho
      simp only [Bool.or_eq_false_iff] at this; exact this.1
    by_cases hair : x.inAir = true
    · -- in flight
      have hr : r = runMagFusions (checkInhibition x (checkDecl x (selectMode x (velPosReset x (airYawReset x (checkHagl x p)))))) := by
        show controlMag x s = _
        rw [hc]; unfold magWithData; dsimp only
        rw [if_pos hair]
      have hk := kept_select x (velPosReset x (airYawReset x (checkHagl x p)))
      rw [← hr] at hk
      obtain ⟨v1, v2, v3, v4, v5, v6⟩ := velPosReset_cases x (airYawReset x (checkHagl x p))
      set a := airYawReset x (checkHagl x p) with hadef
      set h := checkHagl x p with hh
      have hreq : h.magYawReq = req := by
        rw [hh]; unfold checkHagl
        cases hal : s.magAligned <;> simp [p3, hair, hal, p1, req, hd, other]
      have hal : h.magAligned = s.magAligned := by rw [hh]; simp [p3, hair]
      have hinh : h.inhibited = s.inhibited := by rw [hh]; simp [p7]
      have hlog : h.log = s.log := by
        rw [hh]; unfold checkHagl; split <;> exact p6
      have hvp : h.velposReq = s.velposReq := by rw [hh]; simp [p5]
      have hsrc : velSrc x a = velSrc x s ∧ posSrc x a = posSrc x s := by
        have : a.gps = s.gps ∧ a.optFlow = s.optFlow ∧ a.evVel = s.evVel ∧ a.evPos = s.evPos := by
          rw [hadef, hh]; simp [p11, hpo]
        unfold velSrc posSrc
        rw [this.1, this.2.1, this.2.2.1, this.2.2.2]; exact ⟨rfl, rfl⟩
      have hprev : a.nonMagPrev = other := by rw [hadef, hh]; simp [p2, other]
      have hdue : due = (req && !s.inhibited) := by simp [due, hd]
      rw [hsrc.1, hsrc.2] at v6
      have h8 : h.evYaw = false := by rw [hh]; simp [p8, he]
      have h9 : h.tAlign = s.tAlign := by rw [hh]; simp [p9]
      have h10 : h.yawAlign = true := by rw [hh]; simp [p10, ha]
      have h4 : h.magDist = x.disturbed := by rw [hh]; simp [p4]
      have h11 : h.gps = s.gps := by rw [hh]; simp [p11]
      have h12 : h.wind = s.wind := by rw [hh]; simp [p12]
      have hcan : canResetMagHeading x h = !x.disturbed := by
        unfold canResetMagHeading; rw [h4]
        have : decide (x.magType ≠ 5) = true := by simp; omega
        rw [this, Bool.and_true]
      have ea0 : due = false → a = h := by
        intro hdu
        rw [hadef]; unfold airYawReset
        rw [if_neg (by rw [hreq, hinh, ← hdue, hdu]; simp)]
      have ea1 : due = true → a =
          (let R := if x.fixedWing then realignYawGps x h else if canResetMagHeading x h then resetMagHeading x h else (h, false)
           { R.1 with magYawReq := !R.2, magAligned := R.2 }) := by
        intro hdu
        rw [hadef]; unfold airYawReset
        rw [if_pos (by rw [hreq, hinh, ← hdue, hdu])]
      have hin : due = true → h.inhibited = false := by
        intro hdu
        rw [hdue] at hdu
        rw [hinh]
        cases hi : s.inhibited
        · rfl
        · simp [hi] at hdu
      have cm : due = true → x.fixedWing = false → a.magYawReq = !(!x.disturbed && compassOk) ∧ a.magAligned = (!x.disturbed && compassOk) ∧
          Spec.yawResets a.log = Spec.yawResets s.log ++ (if !x.disturbed && compass then [.mag] else []) ∧
          a.velposReq = s.velposReq ∧ Spec.velPosResets a.log = Spec.velPosResets s.log := by
        intro hdu hfw
        obtain ⟨c1, c2, c3, c4⟩ := resetMagHeading_cases x h ht h8 (hin hdu)
        rw [ea1 hdu]
        simp only [hfw, hcan, Bool.false_eq_true, if_false]
        cases hdis : x.disturbed
        · simp only [Bool.not_false, if_true, Bool.true_and]
          rw [c1, c2, c3, c4, h9, hlog, hvp]
          refine ⟨rfl, rfl, ?_, rfl, rfl⟩
          simp [compass]
        · simp [hlog, hvp]
      have cg : due = true → x.fixedWing = true → x.courseOk = false → a.magYawReq = !compassOk ∧ a.magAligned = compassOk ∧
          Spec.yawResets a.log = Spec.yawResets s.log ++ (if compass then [.mag] else []) ∧
          a.velposReq = s.velposReq ∧ Spec.velPosResets a.log = Spec.velPosResets s.log := by
        intro hdu hfw hco
        obtain ⟨c1, c2, c3, c4⟩ := resetMagHeading_cases x h ht h8 (hin hdu)
        rw [ea1 hdu]
        simp only [hfw, if_true, realignYawGps, hco, Bool.not_false]
        rw [c1, c2, c3, c4, h9, hlog, hvp]
        refine ⟨rfl, rfl, ?_, rfl, rfl⟩
        simp [compass]
      have cc : due = true → x.fixedWing = true → x.courseOk = true → a.magYawReq = false ∧ a.magAligned = true ∧
          Spec.yawResets a.log = Spec.yawResets s.log ++
            (if bad then [if s.magAligned = false then .courseError else if s.wind then .windCourse else .gpsCourse] else []) ∧
          a.velposReq = (s.velposReq || bad) ∧ Spec.velPosResets a.log = Spec.velPosResets s.log := by
        intro hdu hfw hco
        obtain ⟨c1, c2, c3⟩ := courseAlign_cases x h h10
        rw [ea1 hdu]
        simp only [hfw, if_true, realignYawGps, hco, Bool.not_true, Bool.false_eq_true, if_false]
        rw [c1, c2, c3, hlog, hvp, h11, h12, hal]
        exact ⟨trivial, trivial, rfl, rfl, rfl⟩
      have hvpa : a.velposReq = (s.velposReq || (due && x.fixedWing && x.courseOk && bad)) ∧ Spec.velPosResets a.log = Spec.velPosResets s.log := by
        cases hdu : due
        · rw [ea0 hdu, hvp, hlog]; simp
        · cases hfw : x.fixedWing
          · obtain ⟨_, _, _, k1, k2⟩ := cm hdu hfw
            rw [k1, k2]; simp
          · cases hco : x.courseOk
            · obtain ⟨_, _, _, k1, k2⟩ := cg hdu hfw hco
              rw [k1, k2]; simp
            · obtain ⟨_, _, _, k1, k2⟩ := cc hdu hfw hco
              rw [k1, k2]; simp
      refine ⟨by rw [hk.prev, v3, hprev], ?_, ?_, ?_, ?_, ?_, ?_⟩
      · intro hdu
        have ea := ea0 hdu
        refine ⟨?_, ?_, ?_⟩
        · rw [hk.req, v1, ea, hreq]
        · rw [hk.al, v2, ea, hal, hair, Bool.and_true]
        · rw [hk.yaw, v5, ea, hlog]
      · intro hdu hor
        have hfw : x.fixedWing = false := by
          rcases hor with k | k
          · rw [hair] at k; cases k
          · exact k
        obtain ⟨k1, k2, k3, _, _⟩ := cm hdu hfw
        refine ⟨by rw [hk.req, v1, k1], by rw [hk.al, v2, k2, hair, Bool.true_and], by rw [hk.yaw, v5, k3]⟩
      · intro hdu _ hfw hco
        obtain ⟨k1, k2, k3, _, _⟩ := cg hdu hfw hco
        exact ⟨by rw [hk.req, v1, k1], by rw [hk.al, v2, k2], by rw [hk.yaw, v5, k3]⟩
      · intro hdu _ hfw hco
        obtain ⟨k1, k2, k3, _, _⟩ := cc hdu hfw hco
        exact ⟨by rw [hk.req, v1, k1], by rw [hk.al, v2, k2], by rw [hk.yaw, v5, k3]⟩
      · intro _ _
        refine ⟨by rw [hk.vp, v4], ?_⟩
        rw [hk.velpos, v6, hvpa.1, hvpa.2]
        cases hb : (s.velposReq || (due && x.fixedWing && x.courseOk && bad))
        · right; simp
        · left; simp
      · intro h; rcases h with h | h
        · rw [hd] at h; cases h
        · rw [hair] at h; cases h
    · -- on the ground
      have hair' : x.inAir = false := by simpa using hair
      have hr : r = runMagFusions (checkInhibition x (checkDecl x (selectMode x (groundYawReset x p)))) := by
        show controlMag x s = _
        rw [hc]; unfold magWithData; dsimp only
        rw [if_neg hair]
      have hk := kept_select x (groundYawReset x p)
      rw [← hr] at hk
      set a := groundYawReset x p with hadef
      have hreq : p.magYawReq = req := by rw [p1]; simp [req, hair', other]
      have hdue : due = (req && !s.inhibited) := by simp [due, hd]
      have hcan : canResetMagHeading x p = !x.disturbed := by
        unfold canResetMagHeading; rw [p4]
        have : decide (x.magType ≠ 5) = true := by simp; omega
        rw [this, Bool.and_true]
      have hal : a.magAligned = false ∧ a.nonMagPrev = other := by
        rw [hadef]
        constructor
        · simp [p3, hair']
        · simp [p2, other]
      have ea0 : due = false → a = p := by
        intro hdu
        rw [hadef]; unfold groundYawReset
        rw [if_neg (by rw [hreq, p7, ← hdue, hdu]; simp)]
      have cm : due = true → a.magYawReq = !(!x.disturbed && compassOk) ∧
          Spec.yawResets a.log = Spec.yawResets s.log ++ (if !x.disturbed && compass then [.mag] else []) ∧
          a.velposReq = s.velposReq ∧ Spec.velPosResets a.log = Spec.velPosResets s.log := by
        intro hdu
        have hin : p.inhibited = false := by
          rw [hdue] at hdu
          rw [p7]
          cases hi : s.inhibited
          · rfl
          · simp [hi] at hdu
        obtain ⟨c1, c2, c3, c4⟩ := resetMagHeading_cases x p ht (by rw [p8, he]) hin
        have ea : a = (let R := if canResetMagHeading x p then resetMagHeading x p else (p, false); { R.1 with magYawReq := !R.2 }) := by
          rw [hadef]; unfold groundYawReset
          rw [if_pos (by rw [hreq, p7, ← hdue, hdu])]
        rw [ea]
        simp only [hcan]
        cases hdis : x.disturbed
        · simp only [Bool.not_false, if_true, Bool.true_and]
          rw [c1, c2, c3, c4, p9, p6, p5]
          refine ⟨rfl, ?_, rfl, rfl⟩
          simp [compass]
        · simp [p6, p5]
      refine ⟨by rw [hk.prev, hal.2], ?_, ?_, ?_, ?_, ?_, ?_⟩
      · intro hdu
        refine ⟨?_, ?_, ?_⟩
        · rw [hk.req, ea0 hdu, hreq]
        · rw [hk.al, hal.1, hair', Bool.and_false]
        · rw [hk.yaw, ea0 hdu, p6]
      · intro hdu _
        obtain ⟨k1, k3, _, _⟩ := cm hdu
        refine ⟨by rw [hk.req, k1], by rw [hk.al, hal.1, hair', Bool.false_and], by rw [hk.yaw, k3]⟩
      · intro _ h; rw [hair'] at h; cases h
      · intro _ h; rw [hair'] at h; cases h
      · intro _ h; rw [hair'] at h; cases h
      · intro _
        rw [hk.vp, hk.velpos]
        cases hdu : due
        · rw [ea0 hdu, p5, p6]; exact ⟨rfl, rfl⟩
        · exact ⟨(cm hdu).2.2.1, (cm hdu).2.2.2⟩
  · have hd' : data = false := by simpa using hd
    rw [if_neg hd] at hc
    have hr : r = p := hc
    have hdue : due = false := by simp [due, hd']
    have hno : ∀ {P : Prop}, due = true → P := by
      intro P h; rw [hdue] at h; cases h
    refine ⟨by rw [hr, p2], ?_, fun h => hno h, fun h => hno h, fun h => hno h, ?_, ?_⟩
    · intro _
      rw [hr, p1, p3, p6]
      refine ⟨?_, rfl, rfl⟩
      simp [req, hd', other]
    · intro h; rw [hd'] at h; cases h
    · intro _; rw [hr, p5, p6]; exact ⟨rfl, rfl⟩

/-- on entry of the magnetometer part, for a vehicle whose tilt is aligned -/
theorem stMag_aligned (x : In) (s : St) (h : s.tilt = true) :
    (stMag x s).log = [] ∧ (stMag x s).yawAlign = s.yawAlign ∧ (stMag x s).evYaw = s.evYaw ∧ (stMag x s).gpsYaw = s.gpsYaw ∧
    (stMag x s).magFault = s.magFault ∧ (stMag x s).nonMagPrev = s.nonMagPrev ∧ (stMag x s).inhibited = s.inhibited ∧
    (stMag x s).tAlign = s.tAlign := by
  have ht : tiltAlign x (requests x { s with log := [], evts := [] }) = requests x { s with log := [], evts := [] } := by
    unfold tiltAlign
    rw [if_neg (by simp [h])]
  unfold stMag
  rw [ht]
  refine ⟨?_, ?_, ?_, ?_, ?_, ?_, ?_, ?_⟩
  · unfold flowArrival requests; dsimp only; split_ifs <;> rfl
  all_goals simp

/-- **C157 (memory).** A complete update remembers whether a vision or GPS-antenna heading was in use when it began. -/
theorem step_remembers_source (x : In) (s : St) (ht : x.magType < 5) (hf : s.magFault = false) (hti : s.tilt = true)
    (ha : s.yawAlign = true) : (step x s).nonMagPrev = (s.evYaw || s.gpsYaw) := by
  obtain ⟨_, k2, k3, k4, k5, _, _⟩ := stMag_aligned x s hti
  rw [step_eq]
  have h1 : ∀ t, (stRest x t).nonMagPrev = t.nonMagPrev := by intro t; unfold stRest; simp
  rw [h1]
  have h2 := (heading_reset_decision x (stMag x s) ht (by rw [k5, hf]) (by rw [k2, ha])).1
  rw [h2, k3, k4]

/-- **C157 (recovery).** When the last vision or GPS-antenna heading source stops, the next update with magnetometer data takes the
heading from the magnetometer (types AUTO, HEADING and 3D; not a fixed wing in flight; undisturbed field, fusion not inhibited, no
reset at this very time). -/
theorem heading_recovered (x x' : In) (s : St) (ht : x.magType < 5) (hf : s.magFault = false) (hti : s.tilt = true) (ha : s.yawAlign = true)
    (hs : (s.evYaw || s.gpsYaw) = true) (hs' : ((step x s).evYaw || (step x s).gpsYaw) = false) (hf' : (step x s).magFault = false)
    (hti' : (step x s).tilt = true) (ha' : (step x s).yawAlign = true) (hi' : (step x s).inhibited = false) (ht' : x'.magType ≤ 2) (hd : x'.magReady = true)
    (hdis : x'.disturbed = false) (hv : x'.inAir = false ∨ x'.fixedWing = false) (hne : x'.tDel ≠ (step x s).tAlign) :
    Act.yawReset .mag ∈ (step x' (step x s)).log := by
  have hp := step_remembers_source x s ht hf hti ha
  rw [hs] at hp
  generalize step x s = t at *
  obtain ⟨k1, k2, k3, k4, k5, k6, k7, k8⟩ := stMag_aligned x' t hti'
  have h := (heading_reset_decision x' (stMag x' t) (by omega) (by rw [k5, hf']) (by rw [k2, ha'])).2.2.1
  rw [k3, k4, k6, k7, k8, hs', hp, hi', hd, hdis, k1] at h
  have h2 := (h (by simp) hv).2.2
  rw [if_pos (by simp [ht', hne])] at h2
  have hm : Act.yawReset .mag ∈ (controlMag x' (stMag x' t)).log := by
    have : YawSrc.mag ∈ Spec.yawResets (controlMag x' (stMag x' t)).log := by rw [h2]; simp
    obtain ⟨a, ha, hb⟩ := List.mem_filterMap.mp this
    cases a <;> simp at hb
    subst hb; exact ha
  rw [step_eq]
  unfold stRest
  exact controlFake_log_mem _ _ _ (controlAux_log_mem _ _ _ (controlEv_log_mem _ _ _ (controlDrag_log_mem _ _ _ (controlBeta_log_mem _ _ _
    (controlAir_log_mem _ _ _ (controlGps_log_mem _ _ _ (controlFlow_log_mem _ _ _ hm)))))))

/-! ## Concrete cases -/

/-- tilt converges with the first magnetometer sample; vision yaw runs, then stops for want of data -/
def exVision : List In :=
  [{ tiltConverged := true, magReady := true, tDel := 1000000, now := 1100000 },
   { magReady := true, tDel := 1010000, now := 1110000, useEvYaw := true, evReady := true, tEv := 1105000 },
   { magReady := true, tDel := 1020000, now := 1120000, useEvYaw := true, evReady := true, tEv := 1115000 },
   { magReady := true, tDel := 9020000, now := 9120000, useEvYaw := true, tEv := 1115000 }]

/-- hypotheses of `heading_recovered`: vision yaw in use, then stopped; the next sample resets the heading -/
example : let s := run {} (exVision.take 3); let t := run {} exVision
    s.evYaw = true ∧ s.tilt = true ∧ s.yawAlign = true ∧ s.magFault = false ∧ t.evYaw = false ∧ t.gpsYaw = false ∧ t.inhibited = false ∧
    t.magFault = false ∧ t.tilt = true ∧ t.yawAlign = true ∧ t.tAlign ≠ 9030000 ∧
    Act.yawReset .mag ∈ (step { magReady := true, tDel := 9030000, now := 9130000 } t).log := by decide +kernel

/-- **C157 (finding).** A fixed wing in flight without a usable GPS course takes its heading from the magnetometer although the field
is disturbed at that moment: the test made for all other vehicles is skipped. -/
theorem disturbed_compass_used : ∃ xs : List In, ∃ x : In, let s := run {} xs
    x.disturbed = true ∧ x.inAir = true ∧ x.fixedWing = true ∧ s.inhibited = false ∧ Act.yawReset .mag ∈ (step x s).log ∧
    Act.yawReset .mag ∉ (step { x with fixedWing := false } s).log := by
  refine ⟨[{ tiltConverged := true, magReady := true, tDel := 1000000, now := 1100000 },
    { magReady := true, inAir := true, fixedWing := true, tDel := 1010000, now := 1110000 }],
    { magReady := true, inAir := true, fixedWing := true, aboveMag := true, disturbed := true, tDel := 1020000, now := 1120000 }, ?_⟩
  decide +kernel

/-- **C157 (finding).** With the type INDOOR (aiding present, so not inhibited) a requested reset never happens and the request is never
withdrawn. -/
theorem indoor_request_stays (x : In) (s : St) (ht : x.magType = 4) (hf : s.magFault = false) (ha : s.yawAlign = true)
    (hr : s.magYawReq = true) (hi : s.inhibited = false) (hne : x.tDel ≠ s.tAlign) (hv : x.inAir = false ∨ x.fixedWing = false) :
    (controlMag x s).magYawReq = true ∧ Spec.yawResets (controlMag x s).log = Spec.yawResets s.log := by
  obtain ⟨_, h0, h1, _⟩ := heading_reset_decision x s (by omega) hf ha
  rw [hr, hi] at h0 h1
  simp only [Bool.true_or, Bool.and_true, Bool.not_false] at h0 h1
  by_cases hd : (!(s.evYaw || s.gpsYaw) && x.magReady) = true
  · obtain ⟨a, _, c⟩ := h1 hd hv
    rw [a, c]
    have h4 : ¬ x.magType ≤ 2 := by omega
    simp [h4, hne]
  · obtain ⟨a, _, c⟩ := h0 (by simpa using hd)
    exact ⟨a, c⟩

/-- the hypotheses of `indoor_request_stays` are reached: type changed to INDOOR with vision position in use, then the first GPS fix
asks for a reset -/
example : let s := run {} [{ tiltConverged := true, magReady := true, tDel := 1000000, now := 1100000 },
      { magReady := true, tDel := 1010000, now := 1110000, useEvPos := true, evReady := true, tEv := 1105000, evPosOk := true },
      { magType := 4, magReady := true, tDel := 1020000, now := 1120000, useEvPos := true, evReady := true, tEv := 1115000, evPosOk := true },
      { magType := 4, magReady := true, tDel := 1030000, now := 1130000, useEvPos := true, evReady := true, tEv := 1125000, originSet := true,
        evPosOk := true }]
    s.magYawReq = true ∧ s.inhibited = false ∧ s.yawAlign = true ∧ s.magFault = false ∧ s.tAlign = 1000000 := by decide +kernel

end Ecl.Aid
