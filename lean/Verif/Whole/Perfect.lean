import Verif.Whole.Extra
import Verif.Fusion.Heading
import Verif.Fusion.GpsYaw

/-!
# Measurements that fit the state leave it unchanged; perfect data keep a perfect estimate (C139)
-/

namespace Ecl.Whole

open Ecl.Cov Ecl.Fusion Ecl.Ekf
open Ecl.ImuDownSampler (ImuSample AxisAngleLib)

/-- the angles `a` and `b` are the same direction -/
def Spec.sameAngle (a b : ℝ) : Prop := ∃ k : ℤ, a = b + k * (2 * Real.pi)

/-- the horizontal earth field of the state is within the limits set by the expected declination and strength -/
def Spec.fieldInLimits (x : DeclIn) (s : Vec ℝ) : Prop :=
  Fusion.Spec.hMin x ≤ Fusion.Spec.horizField s ∧ |Fusion.Spec.declOf s - Fusion.Spec.declRef x| ≤ 1 / 2

/-- The operation is a fusion of a measurement that is exactly what the state `s` predicts (or does not write the state at all).  `R` is the rotation
matrix stored by the filter. -/
def Spec.Fits (s : Vec ℝ) (R : M3 ℝ) : Op → Prop
  | .hvel _ i0 i1 .. => i0 = 0 ∧ i1 = 0
  | .vvel _ i .. => i = 0
  | .hpos _ i0 i1 .. => i0 = 0 ∧ i1 = 0
  | .vpos _ i .. => i = 0
  | .mag x _ => (∀ a, x.mag a = Fusion.Spec.magPred a s) ∧ Spec.fieldInLimits x.decl s
  | .declination x .. => (x.alignedInFlight = false → Fusion.Spec.declRef x = Fusion.Spec.declOf s) ∧ Spec.fieldInLimits x s
  | .heading x a => ∀ b, (b = true ↔ Utils.shouldUse321 (attQuat s).dcm) →
      Spec.sameAngle (Fusion.Spec.headingMeas x b s) (Fusion.Spec.yawOfMat b (attQuat s).dcm) ∧
      (x.inhibited = true → x.atRest = true → Spec.sameAngle a.lastStatic (Fusion.Spec.yawOfMat b (attQuat s).dcm))
  | .gpsYaw x _ => x.Rte = R ∧ Spec.sameAngle (x.yaw + x.off) (Fusion.Spec.antHeading x.off s)
  | .airspeed x _ => x.tas = Fusion.Spec.airspeed s
  | .sideslip _ _ => Fusion.Spec.bodyAir s 1 = 0
  | .drag x _ => ∀ a, Fusion.Spec.dragPred x a (Fusion.Spec.bodyAir s a.castSucc) = Fusion.Spec.dragMeas x s a
  | .flow x _ => ∀ a, Fusion.Spec.flowInnov x s a = 0
  | .initCov _ => True
  | .yawVariance _ => True
  | .resetMagCov _ => True
  | .clearMagCov => True
  | .startMag3D => True
  | .startMagHdg => True
  | .stopMag3D => True
  | .stopMagHdg => True
  | .yawGyroVariance _ => True
  | _ => False

/-- airspeed and sideslip fusion did not report a fault (which resets the wind estimate) -/
def Spec.NoFault (f : Filt) : Op → Prop
  | .airspeed x a => (fuseAirspeed x { a with f := f }).bad = false
  | .sideslip x a => (fuseSideslip x { a with f := f }).bad = false
  | _ => True

theorem fuse_zero (s k : Vec ℝ) (h : (attQuat s).normSq = 1) : fuseState s k 0 = s := by
  unfold fuseState
  funext i
  have e : s 0 ^ 2 + s 1 ^ 2 + s 2 ^ 2 + s 3 ^ 2 = 1 := by rw [← h]; unfold attQuat Quat.normSq; ring
  simp only [mul_zero, sub_zero, e, Real.sqrt_one, div_one, ite_self]

theorem update_zero (x : FixIn ℝ) (k h : Vec ℝ) (f : Filt) (hq : (attQuat f.s).normSq = 1) : (update x k h 0 f).1.s = f.s := by
  unfold update
  split
  · exact fuse_zero _ _ hq
  · rfl

theorem direct_zero (x : VPIn) (S : ℝ) (o : Fin 6) (st : VPSt) (hq : (attQuat st.f.s).normSq = 1) : (fuseVelPosHeight x 0 S o st).f.s = st.f.s := by
  unfold fuseVelPosHeight
  simp only
  split
  · exact fuse_zero _ _ hq
  · rfl

theorem applyYaw_zero (x : FixIn ℝ) (k : Vec ℝ) (j : Fin 4 → ℝ) (f : Filt) (hq : (attQuat f.s).normSq = 1) : (applyYaw x k j 0 f).1.s = f.s := by
  unfold applyYaw
  simp only
  split
  · exact fuse_zero _ _ hq
  · rfl

theorem constrain_zero {l : ℝ} (h : 0 ≤ l) : constrain (0 : ℝ) (-l) l = 0 := constrain_of_mem (by linarith) h

theorem velpos_zero (x : VPIn) (st : VPSt) (hq : (attQuat st.f.s).normSq = 1) (g r0 r1 : ℝ) (b : Bool) :
    (fuseHorizontalVelocity x 0 0 g r0 r1 st).st.f.s = st.f.s ∧ (fuseVerticalVelocity x 0 g r0 st).st.f.s = st.f.s ∧
    (fuseHorizontalPosition x 0 0 g r0 r1 b st).st.f.s = st.f.s ∧ (fuseVerticalPosition x 0 g r0 st).st.f.s = st.f.s := by
  have two : ∀ (S S' : ℝ) (o o' : Fin 6) (t : VPSt), t.f = st.f → (fuseVelPosHeight x 0 S o (fuseVelPosHeight x 0 S' o' t)).f.s = st.f.s := by
    intro S S' o o' t e
    have h1 := direct_zero x S' o' t (by rw [e]; exact hq)
    rw [direct_zero _ _ _ _ (by rw [h1, e]; exact hq), h1, e]
  refine ⟨?_, ?_, ?_, ?_⟩
  · unfold fuseHorizontalVelocity
    simp only
    split
    · exact two _ _ _ _ _ rfl
    · rfl
  · unfold fuseVerticalVelocity
    have e : sq (0 : ℝ) / (sq g * (st.f.P 6 6 + r0)) = 0 := by unfold sq; simp
    simp only [e, zero_le_one, decide_true, Bool.not_true, Bool.and_false, Bool.false_eq_true, if_false, if_true]
    exact direct_zero _ _ _ _ hq
  · unfold fuseHorizontalPosition
    simp only
    repeat' split
    all_goals first | rfl | exact two _ _ _ _ _ rfl
  · unfold fuseVerticalPosition
    have e : sq (0 : ℝ) / (sq g * (st.f.P 9 9 + r0)) = 0 := by unfold sq; simp
    simp only [e, zero_le_one, decide_true, Bool.not_true, Bool.and_false, Bool.false_eq_true, if_false, if_true]
    exact direct_zero _ _ _ _ hq

theorem limit_id {x : DeclIn} {s : Vec ℝ} (h : Spec.fieldInLimits x s) : limitDeclination x s = s := by
  obtain ⟨h1, h2⟩ := h
  rw [abs_le] at h2
  exact (limitDeclination_spec x s).2.2.1 h1 (by linarith [h2.1]) (by linarith [h2.2])

theorem mag_zero (x : MagIn) (st : MagSt) (hq : (attQuat st.f.s).normSq = 1) (hm : ∀ a, x.mag a = Fusion.Spec.magPred a st.f.s)
    (hl : Spec.fieldInLimits x.decl st.f.s) : (fuseMag x st).f.s = st.f.s := by
  have axis : ∀ (a : Fin 3) (t : MagSt), t.innov = 0 → t.f.s = st.f.s → (magAxis x a t).1.innov = 0 ∧ (magAxis x a t).1.f.s = st.f.s := by
    intro a t e1 e2
    unfold magAxis
    simp only
    split
    · exact ⟨e1, e2⟩
    · have hi : t.innov a = 0 := by rw [e1]; rfl
      rw [hi]
      have hu : ∀ k h, (update x.fx k h 0 t.f).1.s = st.f.s := fun k h => (update_zero _ _ _ _ (by rw [e2]; exact hq)).trans e2
      split
      · exact ⟨e1, by simp only [hu]; exact limit_id hl⟩
      · exact ⟨e1, hu _ _⟩
  have loop : ∀ t : MagSt, t.innov = 0 → t.f.s = st.f.s → (magLoop x t).f.s = st.f.s := by
    intro t e1 e2
    obtain ⟨a1, a2⟩ := axis 0 t e1 e2
    obtain ⟨b1, b2⟩ := axis 1 _ a1 a2
    unfold magLoop
    simp only
    repeat' split
    all_goals first | exact a2 | exact b2 | exact (axis 2 _ b1 b2).2
  have hi : ∀ b : Bool, (if b then set3 (![(Utils.quatToInverseRotMat (attQuat st.f.s)).mulVec ![st.f.s 16, st.f.s 17, st.f.s 18] 0 + st.f.s 19 - x.mag 0,
      (Utils.quatToInverseRotMat (attQuat st.f.s)).mulVec ![st.f.s 16, st.f.s 17, st.f.s 18] 1 + st.f.s 20 - x.mag 1,
      (Utils.quatToInverseRotMat (attQuat st.f.s)).mulVec ![st.f.s 16, st.f.s 17, st.f.s 18] 2 + st.f.s 21 - x.mag 2] : V3 ℝ) 2 0 else
      (![(Utils.quatToInverseRotMat (attQuat st.f.s)).mulVec ![st.f.s 16, st.f.s 17, st.f.s 18] 0 + st.f.s 19 - x.mag 0,
      (Utils.quatToInverseRotMat (attQuat st.f.s)).mulVec ![st.f.s 16, st.f.s 17, st.f.s 18] 1 + st.f.s 20 - x.mag 1,
      (Utils.quatToInverseRotMat (attQuat st.f.s)).mulVec ![st.f.s 16, st.f.s 17, st.f.s 18] 2 + st.f.s 21 - x.mag 2] : V3 ℝ)) = 0 := by
    intro b
    rw [hm 0, hm 1, hm 2, invRot_eq]
    unfold Fusion.Spec.magPred
    funext i
    cases b <;> fin_cases i <;> simp [set3]
  unfold fuseMag
  simp only
  split
  · rfl
  · split
    · rfl
    · split
      · rfl
      · rw [hi x.synthZ]
        split
        · rfl
        · exact loop _ rfl rfl

theorem decl_zero (x : DeclIn) (fx : FixIn ℝ) (sg : ℝ) (st : DeclSt) (hq : (attQuat st.f.s).normSq = 1)
    (hm : x.alignedInFlight = false → Fusion.Spec.declRef x = Fusion.Spec.declOf st.f.s) (hl : Spec.fieldInLimits x st.f.s) :
    (fuseDeclination x fx sg st).f.s = st.f.s := by
  have e : atan2 (st.f.s 17) (st.f.s 16) - getMagDeclination x st.f.s = 0 := by
    unfold getMagDeclination
    split
    · ring
    · next h =>
      have := hm (by simpa using h)
      unfold Fusion.Spec.declRef Fusion.Spec.declOf at this
      rw [← this]
      cases h1 : x.useGeo <;> cases h2 : x.geo <;> simp
  unfold fuseDeclination
  simp only [e, constrain_zero (show (0 : ℝ) ≤ 1 / 2 by norm_num)]
  have hu : ∀ k h, (update fx k h 0 st.f).1.s = st.f.s := fun k h => update_zero _ _ _ _ hq
  repeat' split
  all_goals first | rfl | exact hu _ _ | (simp only [hu]; exact limit_id hl)

theorem updQuat_zero (x : HdgIn) (v g : ℝ) (j : Fin 4 → ℝ) (st : YawSt) (hq : (attQuat st.f.s).normSq = 1) :
    (updateQuaternion x 0 v g j st).f.s = st.f.s := by
  have hz : ∀ k, (applyYaw x.fx k j 0 st.f).1.s = st.f.s := fun k => applyYaw_zero _ _ _ _ hq
  unfold updateQuaternion
  simp only [sq, mul_zero, zero_div]
  split
  · rfl
  · rw [if_neg (by norm_num)]
    exact hz _

theorem wrap_same {a b : ℝ} (h : Spec.sameAngle b a) : wrapPi (a - wrapPi b) = 0 := by
  obtain ⟨k, hk⟩ := h
  obtain ⟨-, l, hl⟩ := wrapPi_spec b
  exact wrapPi_turns ⟨l - k, by rw [hl, hk]; push_cast; ring⟩

theorem fuseYaw_zero (b : Bool) (x : HdgIn) (R : M3 ℝ) (yaw v : ℝ) (z : Bool) (st : YawSt) (hq : (attQuat st.f.s).normSq = 1)
    (h : z = true ∨ Spec.sameAngle yaw (Fusion.Spec.yawOfMat b R)) : (fuseYaw b x R yaw v z st).f.s = st.f.s := by
  have hi : ∀ c, (b = true → c = atan2 (R 1 0) (R 0 0)) → (b = false → c = atan2 (-R 0 1) (R 1 1)) → (if z = true then (0 : ℝ) else wrapPi (c - wrapPi yaw)) = 0 := by
    intro c h1 h2
    rcases h with h | h
    · rw [if_pos h]
    · split
      · rfl
      · refine wrap_same ?_
        cases b
        · rw [h2 rfl]; exact h
        · rw [h1 rfl]; exact h
  unfold fuseYaw
  cases b
  · rw [if_neg (by simp)]
    unfold fuseYaw312
    split
    · rfl
    · simp only [hi _ (fun h => by cases h) (fun _ => rfl)]
      exact updQuat_zero _ _ _ _ _ hq
  · rw [if_pos rfl]
    unfold fuseYaw321
    split
    · rfl
    · simp only [hi _ (fun _ => rfl) (fun h => by cases h)]
      exact updQuat_zero _ _ _ _ _ hq

theorem heading_zero (x : HeadIn) (st : HeadSt) (hq : (attQuat st.y.f.s).normSq = 1)
    (h : ∀ b, (b = true ↔ Utils.shouldUse321 (attQuat st.y.f.s).dcm) →
      Spec.sameAngle (Fusion.Spec.headingMeas x b st.y.f.s) (Fusion.Spec.yawOfMat b (attQuat st.y.f.s).dcm) ∧
      (x.inhibited = true → x.atRest = true → Spec.sameAngle st.lastStatic (Fusion.Spec.yawOfMat b (attQuat st.y.f.s).dcm))) :
    (fuseHeading x st).y.f.s = st.y.f.s ∧ (fuseHeading x st).Rte = (attQuat st.y.f.s).dcm := by
  classical
  set b : Bool := decide (Utils.shouldUse321 (attQuat st.y.f.s).dcm) with hb
  have hb' : b = true ↔ Utils.shouldUse321 (attQuat st.y.f.s).dcm := by simp [hb]
  obtain ⟨h1, h2⟩ := h b hb'
  obtain ⟨r, k1, k2, k3, k4⟩ := heading_spec x st hq b hb'
  refine ⟨?_, r⟩
  cases hi : x.inhibited
  · rw [(k1 hi).1]; exact fuseYaw_zero _ _ _ _ _ _ _ hq (Or.inr h1)
  · cases ha : x.atRest
    · rcases lt_or_ge x.quatMaxVar (st.y.f.P 0 0 + st.y.f.P 1 1 + st.y.f.P 2 2 + st.y.f.P 3 3) with hc | hc
      · rw [(k2 hi ha hc).1]; exact fuseYaw_zero _ _ _ _ _ _ _ hq (Or.inl rfl)
      · rw [(k3 hi ha hc).1]; exact fuseYaw_zero _ _ _ _ _ _ _ hq (Or.inr h1)
    · rw [(k4 hi ha).1]; exact fuseYaw_zero _ _ _ _ _ _ _ hq (Or.inr (h2 hi ha))

theorem gpsYaw_zero (x : GpsYawIn) (st : YawSt) (hq : (attQuat st.f.s).normSq = 1) (hR : x.Rte = (attQuat st.f.s).dcm)
    (h : Spec.sameAngle (x.yaw + x.off) (Fusion.Spec.antHeading x.off st.f.s)) : (fuseGpsYaw x st).f.s = st.f.s := by
  have e : wrapPi (atan2 (antVecEf x.Rte x.off 1) (antVecEf x.Rte x.off 0) - wrapPi (x.yaw + x.off)) = 0 := by
    refine wrap_same ?_
    have : atan2 (antVecEf x.Rte x.off 1) (antVecEf x.Rte x.off 0) = Fusion.Spec.antHeading x.off st.f.s := by
      unfold Fusion.Spec.antHeading Fusion.Spec.antenna antVecEf
      rw [hR]
      simp [Matrix.mulVec, dotProduct, Fin.sum_univ_three]
    rw [this]; exact h
  have hu : ∀ k h, (update x.fx k h 0 st.f).1.s = st.f.s := fun k h => update_zero _ _ _ _ hq
  unfold fuseGpsYaw
  simp only [e, sq, mul_zero, zero_div, if_neg (show ¬ (0 : ℝ) > 1 by norm_num)]
  repeat' split
  all_goals first | rfl | exact hu _ _

theorem airspeed_zero (x : AspIn) (st : AspSt) (hq : (attQuat st.f.s).normSq = 1) (h : x.tas = Fusion.Spec.airspeed st.f.s)
    (hb : (fuseAirspeed x st).bad = false) : (fuseAirspeed x st).f.s = st.f.s := by
  have hu : ∀ k h, (update x.fx k h 0 st.f).1.s = st.f.s := fun k h => update_zero _ _ _ _ hq
  have e : Real.sqrt (Asp.HK2 st.f.P st.f.s (sq (constrain x.easNoise (1 / 2) 5 * constrain x.eas2tas (9 / 10) 10)) 0 0) - x.tas = 0 := by
    rw [h]
    unfold Fusion.Spec.airspeed
    rw [sub_eq_zero]
    congr 1
  unfold fuseAirspeed at hb ⊢
  simp only at hb ⊢
  rw [e] at hb ⊢
  simp only [sq, mul_zero, zero_div, if_neg (show ¬ (0 : ℝ) > 1 by norm_num)] at hb ⊢
  split
  · rfl
  · next h1 =>
    rw [if_neg h1] at hb
    split
    · next h2 => rw [if_pos h2] at hb; cases hb
    · split
      · exact hu _ _
      · exact hu _ _

theorem sideslip_zero (x : BetaIn) (st : BetaSt) (hq : (attQuat st.f.s).normSq = 1) (h : Fusion.Spec.bodyAir st.f.s 1 = 0)
    (hb : (fuseSideslip x st).bad = false) : (fuseSideslip x st).f.s = st.f.s := by
  have hu : ∀ k h, (update x.fx k h 0 st.f).1.s = st.f.s := fun k h => update_zero _ _ _ _ hq
  unfold fuseSideslip at hb ⊢
  simp only [relWindBody_eq, h, zero_div, sq, mul_zero, if_neg (show ¬ (0 : ℝ) > 1 by norm_num)] at hb ⊢
  split
  · next h1 =>
    rw [if_pos h1] at hb
    split
    · next h2 => rw [if_pos h2] at hb; cases hb
    · split
      · exact hu _ _
      · exact hu _ _
  · rfl

theorem flow_zero (x : FlowIn) (st : FlowSt) (hq : (attQuat st.f.s).normSq = 1) (h : ∀ a, Fusion.Spec.flowInnov x st.f.s a = 0) :
    (fuseOptFlow x st).f.s = st.f.s := by
  have e : (![flowVelBody x st.f.s 1 / flowRange x st.f.s - flowRate x 0, -flowVelBody x st.f.s 0 / flowRange x st.f.s - flowRate x 1] : Fin 2 → ℝ) = 0 := by
    rw [flowInnov_eq]; funext a; exact h a
  have axis : ∀ (a : Fin 2) (k hh : Vec ℝ) (t : FlowSt), t.innov = 0 → t.f.s = st.f.s → (flowAxis x a k hh t).innov = 0 ∧ (flowAxis x a k hh t).f.s = st.f.s := by
    intro a k hh t e1 e2
    have hu : (update x.fx k hh 0 t.f).1.s = st.f.s := (update_zero _ _ _ _ (by rw [e2]; exact hq)).trans e2
    have hi : t.innov a = 0 := by rw [e1]; rfl
    unfold flowAxis
    simp only [hi]
    split
    · exact ⟨e1, hu⟩
    · exact ⟨e1, hu⟩
  unfold fuseOptFlow
  simp only [e]
  split
  · rfl
  · split
    · rfl
    · split
      · rfl
      · have both : ∀ (k k' hh hh' : Vec ℝ) (t : FlowSt), t.innov = 0 → t.f.s = st.f.s → (flowAxis x 1 k hh (flowAxis x 0 k' hh' t)).f.s = st.f.s :=
          fun k k' hh hh' t e1 e2 => (axis 1 _ _ _ (axis 0 _ _ t e1 e2).1 (axis 0 _ _ t e1 e2).2).2
        refine both _ _ _ _ _ ?_ ?_
        · rfl
        · rfl

theorem drag_zero (x : DragIn) (st : DragSt) (hq : (attQuat st.f.s).normSq = 1)
    (h : ∀ a, Fusion.Spec.dragPred x a (Fusion.Spec.bodyAir st.f.s a.castSucc) = Fusion.Spec.dragMeas x st.f.s a) : (fuseDrag x st).f.s = st.f.s := by
  have axis : ∀ (a : Fin 2) (t : DragSt), 1 ≤ x.bcoefX ∧ 1 ≤ x.bcoefY → t.f.s = st.f.s → (dragAxis x (relWindBody st.f.s) a t).1.f.s = st.f.s := by
    intro a t hb e
    have hi : -(1 / 2) * (if a = 0 then 1 / x.bcoefX else 1 / x.bcoefY) * max x.airDensity (1 / 10) * sq (relWindBody st.f.s a.castSucc) *
        (if relWindBody st.f.s a.castSucc ≥ 0 then 1 else -1) - (x.accel a - t.f.s (biasIdx a) / x.dt) = 0 := by
      rw [relWindBody_eq, e, show x.accel a - st.f.s (biasIdx a) / x.dt = Fusion.Spec.dragMeas x st.f.s a from rfl, ← h a]
      unfold Fusion.Spec.dragPred Fusion.Spec.bcoef sq
      have h1 : x.bcoefX ≠ 0 := by linarith [hb.1]
      have h2 : x.bcoefY ≠ 0 := by linarith [hb.2]
      set u := Fusion.Spec.bodyAir st.f.s a.castSucc
      by_cases hu : u ≥ 0
      · rw [if_pos hu, abs_of_nonneg hu]; split <;> field_simp <;> ring
      · rw [if_neg hu, abs_of_neg (not_le.mp hu)]; split <;> field_simp <;> ring
    unfold dragAxis
    simp only [hi]
    have hu : ∀ k hh, (update x.fx k hh 0 t.f).1.s = st.f.s := fun k hh => (update_zero _ _ _ _ (by rw [e]; exact hq)).trans e
    repeat' split
    all_goals first | exact e | exact hu _ _
  unfold fuseDrag
  split
  · rfl
  · next hb =>
    rw [not_or, not_lt, not_lt] at hb
    simp only
    have a0 := axis 0 st hb rfl
    split
    · exact axis 1 _ hb a0
    · exact a0

/-- the members that the strap-down prediction reads and writes -/
def strap (w : W) : Strap := ⟨toState w.f.s, w.R, w.accelLpf, w.dtEkfAvg, w.angRateRaw⟩

/-- **C139 (step).** Fusing a measurement that is exactly what the state predicts leaves the state vector, the stored rotation matrix and the other
members used by the prediction as they are, whatever the covariance and the noise parameters. -/
theorem perfect_step (w : W) (op : Op) (hq : (attQuat w.f.s).normSq = 1) (hR : w.R = (attQuat w.f.s).dcm) (h : Spec.Fits w.f.s w.R op)
    (hn : Spec.NoFault w.f op) : (step w op).f.s = w.f.s ∧ strap (step w op) = strap w := by
  have key : ∀ f : Filt, f.s = w.f.s → ({ w with f := f } : W).f.s = w.f.s ∧ strap { w with f := f } = strap w := by
    intro f e
    exact ⟨e, by simp only [strap, e]⟩
  cases op with
  | hvel x i0 i1 g r0 r1 a => obtain ⟨rfl, rfl⟩ := h; exact key _ (velpos_zero x { a with f := w.f } hq g r0 r1 false).1
  | vvel x i g r a => obtain rfl := h; exact key _ (velpos_zero x { a with f := w.f } hq g r 0 false).2.1
  | hpos x i0 i1 g r0 r1 b a => obtain ⟨rfl, rfl⟩ := h; exact key _ (velpos_zero x { a with f := w.f } hq g r0 r1 b).2.2.1
  | vpos x i g r a => obtain rfl := h; exact key _ (velpos_zero x { a with f := w.f } hq g r 0 false).2.2.2
  | mag x a => exact key _ (mag_zero x { a with f := w.f } hq h.1 h.2)
  | declination x fx sg a => exact key _ (decl_zero x fx sg { a with f := w.f } hq h.1 h.2)
  | heading x a =>
    obtain ⟨e1, e2⟩ := heading_zero x { a with y := { a.y with f := w.f }, Rte := w.R } hq h
    refine ⟨e1, ?_⟩
    show Strap.mk (toState (fuseHeading x { a with y := { a.y with f := w.f }, Rte := w.R }).y.f.s)
      (fuseHeading x { a with y := { a.y with f := w.f }, Rte := w.R }).Rte w.accelLpf w.dtEkfAvg w.angRateRaw = strap w
    rw [e1, e2]
    simp only [strap, hR]
  | gpsYaw x a => exact key _ (gpsYaw_zero x { a with f := w.f } hq (h.1.trans hR) h.2)
  | airspeed x a => exact key _ (airspeed_zero x { a with f := w.f } hq h hn)
  | sideslip x a => exact key _ (sideslip_zero x { a with f := w.f } hq h hn)
  | drag x a => exact key _ (drag_zero x { a with f := w.f } hq h)
  | flow x a => exact key _ (flow_zero x { a with f := w.f } hq h)
  | initCov x => exact key _ rfl
  | yawVariance v => exact key _ rfl
  | resetMagCov n => exact key _ rfl
  | clearMagCov => exact key _ rfl
  | startMag3D => exact key _ rfl
  | startMagHdg => exact key _ rfl
  | stopMag3D => exact key _ rfl
  | stopMagHdg => exact key _ rfl
  | yawGyroVariance v => exact key _ rfl
  | _ => exact h.elim

/-- the strap-down predictions of a history, applied to `s` one after the other; everything else is left out -/
noncomputable def Spec.predictions : Strap → List Op → Strap
  | s, [] => s
  | s, .predict x :: l => Spec.predictions (s.predict x.L x.accBiasLim x.earthRate x.imu) l
  | s, _ :: l => Spec.predictions s l

/-- every operation of the history is a prediction, or fits the state at the time it is made and reports no fault -/
def Spec.AllFit (w : W) (l : List Op) : Prop :=
  ∀ p op, p ++ [op] <+: l → (∃ x, op = .predict x) ∨ (Spec.Fits (run w p).f.s (run w p).R op ∧ Spec.NoFault (run w p).f op)

theorem strap_predict (x : PredictIn) (w : W) : strap (predict x w) = (strap w).predict x.L x.accBiasLim x.earthRate x.imu := by
  unfold predict strap
  simp only [toState_ofState]

theorem allFit_tail {w : W} {a : Op} {l : List Op} (h : Spec.AllFit w (a :: l)) : Spec.AllFit (step w a) l := by
  intro p op hp
  exact h (a :: p) op (by simpa using hp)

/-- **C139 (history).** If every measurement fits the state at the time it is fused, the state is that of the strap-down predictions alone: the fusions,
whatever their number, order, noise parameters and gates and whatever the covariance, change nothing. -/
theorem perfect_history (l : List Op) (w : W) (hq : (attQuat w.f.s).normSq = 1) (hR : w.R = (attQuat w.f.s).dcm) (h : Spec.AllFit w l) :
    strap (run w l) = Spec.predictions (strap w) l := by
  induction l generalizing w with
  | nil => rfl
  | cons a l ih =>
    have ht := allFit_tail h
    rcases h [] a (by simp) with ⟨x, rfl⟩ | ⟨hf, hn⟩
    · have hs : strap (step w (.predict x)) = (strap w).predict x.L x.accBiasLim x.earthRate x.imu := strap_predict x w
      obtain ⟨u1, u2⟩ := att_strap x.L x.accBiasLim x.earthRate x.imu (strap w) hq
      rw [← hs] at u1 u2
      have := ih (step w (.predict x)) u1 u2 ht
      rw [hs] at this
      exact this
    · obtain ⟨e1, e2⟩ := perfect_step w a hq hR hf hn
      have hR' : (step w a).R = w.R := congrArg Strap.R e2
      have := ih (step w a) (by rw [e1]; exact hq) (by rw [hR', e1]; exact hR) ht
      rw [e2] at this
      rw [show run w (a :: l) = run (step w a) l from rfl, this]
      cases a <;> first | rfl | exact absurd hf id

/-- motion with constant attitude and constant earth-frame acceleration `a` from `s0`, `t` seconds later; biases, field and wind constant -/
noncomputable def Spec.truth (s0 : State ℝ) (a : V3 ℝ) (t : ℝ) : State ℝ :=
  { s0 with vel := fun i => s0.vel i + a i * t, pos := fun i => s0.pos i + s0.vel i * t + a i * t ^ 2 / 2 }

/-- a log recorded on a vehicle with motion `Spec.truth`: the IMU samples are those of the motion, every other entry is a measurement of the true state
at its time (or writes no state) -/
def Spec.TrueLog (s0 : State ℝ) (a w : V3 ℝ) (lim : ℝ) : ℝ → List Op → Prop
  | _, [] => True
  | t, .predict x :: l => x.L.exp 0 = Quat.one ∧ x.accBiasLim = lim ∧ x.earthRate = w ∧
      Ekf.Spec.ConstAccel s0.quat.dcm w a s0.dAngBias s0.dVelBias x.imu ∧ Spec.TrueLog s0 a w lim (t + x.imu.deltaVelDt) l
  | t, op :: l => Spec.Fits (ofState (Spec.truth s0 a t)) s0.quat.dcm op ∧ Spec.TrueLog s0 a w lim t l

/-- time covered by the IMU samples of a log -/
noncomputable def Spec.elapsed : List Op → ℝ
  | [] => 0
  | .predict x :: l => x.imu.deltaVelDt + Spec.elapsed l
  | _ :: l => Spec.elapsed l

/-- a log cannot make time run backwards -/
theorem elapsed_nonneg {s0 : State ℝ} {a w : V3 ℝ} {lim : ℝ} (l : List Op) (t : ℝ) (h : Spec.TrueLog s0 a w lim t l) : 0 ≤ Spec.elapsed l := by
  induction l generalizing t with
  | nil => exact le_refl _
  | cons op l ih =>
    cases op
    case predict x =>
      obtain ⟨-, -, -, c, r⟩ := h
      have := ih _ r
      have h2 := c.2.2
      simp only [Spec.elapsed]; linarith
    all_goals exact ih _ h.2

/-- **C139 (perfect data).** A filter whose state is the true state stays exactly on the true state over any log of perfect data of a vehicle with
constant attitude and acceleration (for example at rest): any order, number and timing of fusions, any noise parameters and any covariance.  Conditions: the
motion stays within the limits of the state, airspeed and sideslip fusion reports no fault. -/
theorem perfect_data (s0 : State ℝ) (a e : V3 ℝ) (lim : ℝ) (hlim : 0 ≤ lim) (hq : s0.quat.normSq = 1) (l : List Op) (t : ℝ) (ht : 0 ≤ t) (w : W)
    (hw : w.f.s = ofState (Spec.truth s0 a t)) (hR : w.R = s0.quat.dcm) (hd : w.dtEkfAvg ∈ Set.Icc (1 / 200 : ℝ) (1 / 50))
    (hl : Ekf.Spec.WithinLimits (20 * Real.pi / 180 * (1 / 200)) (lim * (1 / 200)) (Spec.truth s0 a t)) (hlog : Spec.TrueLog s0 a e lim t l)
    (hreach : ∀ t', t ≤ t' → t' ≤ t + Spec.elapsed l → ∀ i, |(Spec.truth s0 a t').vel i| ≤ 1000 ∧ |(Spec.truth s0 a t').pos i| ≤ 1000000)
    (hnf : ∀ p op, p ++ [op] <+: l → Spec.NoFault (run w p).f op) :
    (run w l).f.s = ofState (Spec.truth s0 a (t + Spec.elapsed l)) := by
  induction l generalizing t w with
  | nil => simpa [run, Spec.elapsed] using hw
  | cons op l ih =>
    have hqt : (attQuat w.f.s).normSq = 1 := by rw [hw]; exact hq
    have hnf' : ∀ p o, p ++ [o] <+: l → Spec.NoFault (run (step w op) p).f o := fun p o hp => hnf (op :: p) o (by simpa using hp)
    by_cases hp : ∃ x, op = .predict x
    · obtain ⟨x, rfl⟩ := hp
      obtain ⟨hexp, rfl, rfl, hc, hr⟩ := hlog
      have hs : strap (step w (.predict x)) = (strap w).predict x.L x.accBiasLim x.earthRate x.imu := strap_predict x w
      have hst : (strap w).state = Spec.truth s0 a t := by show toState w.f.s = _; rw [hw, toState_ofState]
      have hn := elapsed_nonneg l _ hr
      have hdt := hc.2.2
      have hsplit : ∀ u i, (Spec.truth s0 a t).vel i + a i * u = (Spec.truth s0 a (t + u)).vel i ∧
          (Spec.truth s0 a t).pos i + (Spec.truth s0 a t).vel i * u + a i * u ^ 2 / 2 = (Spec.truth s0 a (t + u)).pos i := by
        intro u i
        simp only [Spec.truth]
        constructor <;> ring
      have hone := constant_acceleration_exact x.L hexp x.accBiasLim hlim x.earthRate a [x.imu] (strap w)
        (by rw [hst]; exact hq) (by rw [hst]; exact hR) hd (by rw [hst]; exact hl)
        (by intro imu hi; rw [List.mem_singleton] at hi; subst hi; rw [hst]; exact hc)
        (by
          intro u h0 h1 i
          rw [hst, (hsplit u i).1, (hsplit u i).2]
          simp only [List.map, List.sum_singleton] at h1
          refine hreach (t + u) (by linarith) ?_ i
          simp only [Spec.elapsed]; linarith)
      have hone' : ((strap w).predict x.L x.accBiasLim x.earthRate x.imu).state = Spec.truth s0 a (t + x.imu.deltaVelDt) := by
        refine Eq.trans hone ?_
        rw [hst]
        simp only [List.map, List.sum_singleton, hsplit]
        rfl
      obtain ⟨u1, u2⟩ := att_strap x.L x.accBiasLim x.earthRate x.imu (strap w) (by rw [hst]; exact hq)
      rw [← hs] at hone' u2
      have hs1 : (step w (.predict x)).f.s = ofState (Spec.truth s0 a (t + x.imu.deltaVelDt)) := by rw [← hone']; exact (ofState_toState _).symm
      have := ih (t + x.imu.deltaVelDt) (by linarith) (step w (.predict x)) hs1 (by rw [hone'] at u2; exact u2) (dt_step w (.predict x) hd)
        (have hb := hreach (t + x.imu.deltaVelDt) (by linarith) (by simp only [Spec.elapsed]; linarith);
          ⟨hl.quat, fun i => (hb i).1, fun i => (hb i).2, hl.gyro, hl.acc, hl.magI, hl.magB, hl.wind⟩) hr
        (fun t' h1 h2 => hreach t' (by linarith) (by simp only [Spec.elapsed]; linarith)) hnf'
      rw [show run w (.predict x :: l) = run (step w (.predict x)) l from rfl, this]
      simp only [Spec.elapsed]
      rw [add_assoc]
    · have hf : Spec.Fits w.f.s w.R op ∧ Spec.TrueLog s0 a e lim t l ∧ Spec.elapsed (op :: l) = Spec.elapsed l := by
        rw [hw, hR]
        cases op
        case predict x => exact absurd ⟨x, rfl⟩ hp
        all_goals exact ⟨hlog.1, hlog.2, rfl⟩
      obtain ⟨hf, hr, hel⟩ := hf
      obtain ⟨e1, e2⟩ := perfect_step w op hqt (by rw [hR, hw]; rfl) hf (hnf [] op (by simp))
      have := ih t ht (step w op) (e1.trans hw) ((congrArg Strap.R e2).trans hR) (by rw [show (step w op).dtEkfAvg = w.dtEkfAvg from congrArg Strap.dtEkfAvg e2]; exact hd) hl hr
        (fun t' h1 h2 => hreach t' h1 (by rw [hel]; exact h2)) hnf'
      rw [hel]
      exact this

/-- example: level vehicle, 2 m/s north, accelerating with 1 m/s², field 0.25 north and 0.5 down -/
noncomputable def exS0 : State ℝ := ⟨Quat.one, ![2, 0, 0], 0, 0, 0, ![1 / 4, 0, 1 / 2], 0, 0⟩

noncomputable def exDt : ℝ := 1 / 100

noncomputable def exDecl : DeclIn := ⟨false, false, none, 0⟩

/-- IMU sample of the motion -/
noncomputable def exAccImu : ImuSample := ⟨10000, 0, ![1 / 100, 0, -(980665 / 10000000)], 1 / 100, 1 / 100, fun _ => false⟩

/-- log with two predictions, a velocity, a three-axis magnetometer, a height and a declination fusion -/
noncomputable def exLog (x : PredictIn) (mx : MagIn) (a : MagSt) (d : DeclSt) (fx : FixIn ℝ) : List Op :=
  [.predict x, .hvel exV 0 0 3 1 1 (exVP exFilt), .mag mx a, .predict x, .vpos exV 0 3 1 (exVP exFilt), .declination exDecl fx (1 / 2) d, .startMag3D]

/-- it is a log of the motion, for any parameters of the prediction and of the magnetometer fusion -/
theorem exLog_true (x : PredictIn) (mx : MagIn) (a : MagSt) (d : DeclSt) (fx : FixIn ℝ) (h1 : x.L.exp 0 = Quat.one) (h2 : x.earthRate = 0)
    (h3 : x.imu = exAccImu) (h4 : mx.mag = ![1 / 4, 0, 1 / 2]) (h5 : mx.decl = exDecl) :
    Spec.TrueLog exS0 ![1, 0, 0] 0 x.accBiasLim 0 (exLog x mx a d fx) ∧ Spec.elapsed (exLog x mx a d fx) = 1 / 50 := by
  have hc : Ekf.Spec.ConstAccel exS0.quat.dcm 0 ![1, 0, 0] exS0.dAngBias exS0.dVelBias x.imu := by
    rw [h3]
    refine ⟨?_, ?_, ?_⟩
    · intro i; fin_cases i <;> simp [exAccImu, exS0]
    · intro i; fin_cases i <;> simp [exAccImu, exS0, Quat.one, Quat.dcm, Matrix.mulVec, dotProduct, Fin.sum_univ_three] <;> norm_num
    · simp [exAccImu]
  have hf : ∀ t, Spec.fieldInLimits exDecl (ofState (Spec.truth exS0 ![1, 0, 0] t)) ∧
      Fusion.Spec.declRef exDecl = Fusion.Spec.declOf (ofState (Spec.truth exS0 ![1, 0, 0] t)) := by
    intro t
    have h16 : ofState (Spec.truth exS0 ![1, 0, 0] t) 16 = 1 / 4 := rfl
    have h17 : ofState (Spec.truth exS0 ![1, 0, 0] t) 17 = 0 := rfl
    have hd : Fusion.Spec.declOf (ofState (Spec.truth exS0 ![1, 0, 0] t)) = 0 := by
      unfold Fusion.Spec.declOf atan2; rw [h16, h17]; simp [Complex.arg]
    have hr : Fusion.Spec.declRef exDecl = 0 := by simp [Fusion.Spec.declRef, exDecl]
    refine ⟨⟨?_, ?_⟩, by rw [hd, hr]⟩
    · unfold Fusion.Spec.horizField; rw [h16, h17]
      rw [show ((1 : ℝ) / 4) ^ 2 + 0 ^ 2 = (1 / 4) ^ 2 by norm_num, Real.sqrt_sq (by norm_num)]
      simp [Fusion.Spec.hMin, exDecl]; try norm_num
    · rw [hd, hr]; norm_num
  have hm : ∀ t a', mx.mag a' = Fusion.Spec.magPred a' (ofState (Spec.truth exS0 ![1, 0, 0] t)) := by
    intro t a'
    rw [h4]
    fin_cases a' <;> simp [Fusion.Spec.magPred, ofState, Spec.truth, exS0, attQuat, Quat.one, Quat.dcm, Matrix.mulVec, dotProduct, Fin.sum_univ_three]
  constructor
  · refine ⟨h1, rfl, h2, hc, ⟨rfl, rfl⟩, ⟨hm _, ?_⟩, h1, rfl, h2, hc, rfl, ⟨fun _ => (hf _).2, (hf _).1⟩, trivial, trivial⟩
    rw [h5]; exact (hf _).1
  · simp only [exLog, Spec.elapsed, h3, exAccImu]; norm_num

/-- the remaining hypotheses of `perfect_data` hold for it -/
example (x : PredictIn) (mx : MagIn) (a : MagSt) (d : DeclSt) (fx : FixIn ℝ) (w : W) (h1 : x.L.exp 0 = Quat.one) (h2 : x.earthRate = 0)
    (h3 : x.imu = exAccImu) (h4 : mx.mag = ![1 / 4, 0, 1 / 2]) (h5 : mx.decl = exDecl) (h6 : 0 ≤ x.accBiasLim)
    (hw : w.f.s = ofState exS0) (hR : w.R = exS0.quat.dcm) (hd : w.dtEkfAvg = 1 / 100) :
    (run w (exLog x mx a d fx)).f.s 7 = 2 * (1 / 50) + (1 / 50) ^ 2 / 2 := by
  obtain ⟨l1, l2⟩ := exLog_true x mx a d fx h1 h2 h3 h4 h5
  have hb : ∀ t : ℝ, 0 ≤ t → t ≤ 1 / 50 → ∀ i, |(Spec.truth exS0 ![1, 0, 0] t).vel i| ≤ 1000 ∧ |(Spec.truth exS0 ![1, 0, 0] t).pos i| ≤ 1000000 := by
    intro t h1 h2 i
    fin_cases i
    · simp only [Spec.truth, exS0]
      refine ⟨abs_le.mpr ⟨?_, ?_⟩, abs_le.mpr ⟨?_, ?_⟩⟩ <;> simp <;> nlinarith
    · simp [Spec.truth, exS0]
    · simp [Spec.truth, exS0]
  have := perfect_data exS0 ![1, 0, 0] 0 x.accBiasLim h6 (by simp [exS0, Quat.one, Quat.normSq]) (exLog x mx a d fx) 0 le_rfl w
    (by rw [hw]; congr 1; simp [Spec.truth, exS0]; rfl) hR (by rw [hd]; norm_num)
    ⟨by simp [Spec.truth, exS0, Quat.one], fun i => (hb 0 le_rfl (by norm_num) i).1, fun i => (hb 0 le_rfl (by norm_num) i).2,
      fun i => by simp [Spec.truth, exS0]; positivity, fun i => by simp [Spec.truth, exS0]; positivity,
      fun i => by fin_cases i <;> simp [Spec.truth, exS0, abs_of_nonneg] <;> norm_num, fun i => by simp [Spec.truth, exS0], fun i => by simp [Spec.truth, exS0]⟩ l1
    (fun t' h1 h2 => hb t' h1 (by rw [l2] at h2; linarith))
    (by
      intro p op hp
      have : op ∈ exLog x mx a d fx := hp.subset (by simp)
      simp only [exLog, List.mem_cons, List.mem_nil_iff, or_false] at this
      rcases this with rfl | rfl | rfl | rfl | rfl | rfl | rfl <;> trivial)
  rw [this, l2]
  simp [ofState, Spec.truth, exS0]
  try norm_num

end Ecl.Whole
