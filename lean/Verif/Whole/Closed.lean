import Verif.Fusion.VelPos
import Verif.Fusion.Mag
import Verif.Fusion.Airspeed
import Verif.Fusion.Sideslip
import Verif.Fusion.Drag
import Verif.Fusion.Flow
import Verif.Fusion.Yaw

/-!
# Predicates kept by the primitive filter corrections are kept by every sensor fusion function
-/

namespace Ecl.Whole

open Ecl.Cov Ecl.Fusion

/-- a predicate on the filter (state vector, covariance, stored variances) that is kept by the primitive corrections the fusion functions are made of -/
structure Closed (I : Filt → Prop) : Prop where
  upd : ∀ (x : FixIn ℝ) (k h : Vec ℝ) (v : ℝ) (f : Filt), I f → I (update x k h v f).1
  ini : ∀ (x : InitIn) (f : Filt), I f → I (initCov x f)
  magRel : ∀ (x : MagIn) (f : Filt), I f → I (resetMagRelated x f)
  wind : ∀ (x : WindResetIn) (f : Filt), 0 ≤ x.initialWindUnc → I f → I (resetWind x f)
  setS : ∀ (f : Filt) (s : Vec ℝ), (∀ i, i.val < 4 → s i = f.s i) → I f → I { f with s := s }
  yaw : ∀ (x : FixIn ℝ) (sel : Fin N → Prop) [DecidablePred sel] (c : ℝ) (j : Fin 4 → ℝ) (v : ℝ) (f : Filt), (∀ i : Fin N, i.val ≤ 15 → sel i) → I f →
    I (applyYaw x (fun i => if sel i then (List.finRange 4).foldl (fun t c => t + f.P i (qi c) * j c) 0 * c else 0) j v f).1
  direct : ∀ (x : VPIn) (v S : ℝ) (o : Fin 6) (st : VPSt), I st.f → I (fuseVelPosHeight x v S o st).f

variable {I : Filt → Prop}

theorem setMagNE_att (s : Vec ℝ) (n e : ℝ) (i : Fin N) (h : i.val < 4) : setMagNE s n e i = s i := by
  unfold setMagNE; rw [if_neg (by omega), if_neg (by omega)]

theorem limitDeclination_att (x : DeclIn) (s : Vec ℝ) (i : Fin N) (h : i.val < 4) : limitDeclination x s i = s i := by
  unfold limitDeclination
  simp only
  split_ifs <;> simp only [setMagNE_att _ _ _ _ h]

theorem closed_velpos (C : Closed I) (st : VPSt) (x : VPIn) (h : I st.f) :
    (∀ i0 i1 g r0 r1, I (fuseHorizontalVelocity x i0 i1 g r0 r1 st).st.f) ∧ (∀ i g r, I (fuseVerticalVelocity x i g r st).st.f) ∧
    (∀ i0 i1 g r0 r1 b, I (fuseHorizontalPosition x i0 i1 g r0 r1 b st).st.f) ∧ (∀ i g r, I (fuseVerticalPosition x i g r st).st.f) := by
  refine ⟨fun i0 i1 g r0 r1 => ?_, fun i g r => ?_, fun i0 i1 g r0 r1 b => ?_, fun i g r => ?_⟩
  · unfold fuseHorizontalVelocity
    simp only
    split
    · exact C.direct _ _ _ _ _ (C.direct _ _ _ _ _ h)
    · exact h
  · unfold fuseVerticalVelocity
    simp only
    split
    · exact C.direct _ _ _ _ _ h
    · split
      · exact C.direct _ _ _ _ _ h
      · exact h
  · unfold fuseHorizontalPosition
    simp only
    split
    · split
      · exact h
      · refine C.direct _ _ _ _ _ (C.direct _ _ _ _ _ ?_)
        cases x.asOdom <;> exact h
    · exact h
  · unfold fuseVerticalPosition
    simp only
    split
    · exact C.direct _ _ _ _ _ h
    · split
      · exact C.direct _ _ _ _ _ h
      · exact h

theorem closed_magAxis (C : Closed I) (x : MagIn) (a : Fin 3) (st : MagSt) (h : I st.f) : I (magAxis x a st).1.f := by
  unfold magAxis
  simp only
  split
  · exact C.magRel _ _ h
  · split
    · exact C.setS _ _ (fun i hi => limitDeclination_att _ _ i hi) (C.upd _ _ _ _ _ h)
    · exact C.upd _ _ _ _ _ h

theorem closed_fuseMag (C : Closed I) (x : MagIn) (st : MagSt) (h : I st.f) : I (fuseMag x st).f := by
  have loop : ∀ st : MagSt, I st.f → I (magLoop x st).f := by
    intro st h
    unfold magLoop
    simp only
    split
    · split
      · split
        · exact closed_magAxis C _ _ _ (closed_magAxis C _ _ _ h)
        · exact closed_magAxis C _ _ _ (closed_magAxis C _ _ _ (closed_magAxis C _ _ _ h))
      · exact closed_magAxis C _ _ _ (closed_magAxis C _ _ _ h)
    · exact closed_magAxis C _ _ _ h
  unfold fuseMag
  simp only
  split
  · exact C.magRel _ _ h
  · split
    · exact C.magRel _ _ h
    · split
      · exact C.magRel _ _ h
      · generalize hr : (if x.synthZ = true then _ else _ : V3 ℝ) = innov
        split
        · exact h
        · exact loop _ h

theorem closed_fuseDeclination (C : Closed I) (x : DeclIn) (fx : FixIn ℝ) (sigma : ℝ) (st : DeclSt) (h : I st.f) : I (fuseDeclination x fx sigma st).f := by
  unfold fuseDeclination
  simp only
  split
  · exact h
  · split
    · split
      · exact C.setS _ _ (fun i hi => limitDeclination_att _ _ i hi) (C.upd _ _ _ _ _ h)
      · exact C.upd _ _ _ _ _ h
    · exact h

theorem closed_windFault (C : Closed I) (w : WindResetIn) (ini : InitIn) (b : Bool) (f : Filt) (hw : 0 ≤ w.initialWindUnc) (h : I f) : I (windFault w ini b f) := by
  unfold windFault
  split
  · exact C.wind _ _ hw h
  · unfold resetFull
    simp only
    refine C.setS _ _ (fun i hi => ?_) (C.ini _ _ h)
    have h1 : i ≠ 22 := by rintro rfl; exact absurd hi (by decide)
    have h2 : i ≠ 23 := by rintro rfl; exact absurd hi (by decide)
    simp [h1, h2]

theorem closed_fuseAirspeed (C : Closed I) (x : AspIn) (st : AspSt) (hw : 0 ≤ x.wr.initialWindUnc) (h : I st.f) : I (fuseAirspeed x st).f := by
  unfold fuseAirspeed
  simp only
  split
  · exact h
  · split
    · exact closed_windFault C _ _ _ _ hw h
    · split
      · exact h
      · split
        · exact C.upd _ _ _ _ _ h
        · exact C.upd _ _ _ _ _ h

theorem closed_fuseSideslip (C : Closed I) (x : BetaIn) (st : BetaSt) (hw : 0 ≤ x.wr.initialWindUnc) (h : I st.f) : I (fuseSideslip x st).f := by
  unfold fuseSideslip
  simp only
  split
  · split
    · exact closed_windFault C _ _ _ _ hw h
    · split
      · exact h
      · split
        · exact C.upd _ _ _ _ _ h
        · exact C.upd _ _ _ _ _ h
  · exact h

theorem closed_dragAxis (C : Closed I) (x : DragIn) (w : V3 ℝ) (a : Fin 2) (st : DragSt) (h : I st.f) : I (dragAxis x w a st).1.f := by
  unfold dragAxis
  simp only
  by_cases h1 : (if a = 0 then DragX.S st.f.P st.f.s (max x.noise (1 / 2)) (max (1 / 10) (max x.airDensity (1 / 10) * (if a = 0 then 1 / x.bcoefX else 1 / x.bcoefY) *
      Real.sqrt (2 * |x.accel a - st.f.s (biasIdx a) / x.dt| / ((if a = 0 then 1 / x.bcoefX else 1 / x.bcoefY) * max x.airDensity (1 / 10))))) 0
      else DragY.S st.f.P st.f.s (max x.noise (1 / 2)) (max (1 / 10) (max x.airDensity (1 / 10) * (if a = 0 then 1 / x.bcoefX else 1 / x.bcoefY) *
      Real.sqrt (2 * |x.accel a - st.f.s (biasIdx a) / x.dt| / ((if a = 0 then 1 / x.bcoefX else 1 / x.bcoefY) * max x.airDensity (1 / 10))))) 0) < max x.noise (1 / 2)
  · rw [if_pos h1]; exact h
  · rw [if_neg h1]
    repeat' split
    all_goals first | exact h | exact C.upd _ _ _ _ _ h

theorem closed_fuseDrag (C : Closed I) (x : DragIn) (st : DragSt) (h : I st.f) : I (fuseDrag x st).f := by
  unfold fuseDrag
  simp only
  split
  · exact h
  · split
    · exact closed_dragAxis C _ _ _ _ (closed_dragAxis C _ _ _ _ h)
    · exact closed_dragAxis C _ _ _ _ h

theorem closed_flowAxis (C : Closed I) (x : FlowIn) (a : Fin 2) (k hh : Vec ℝ) (st : FlowSt) (h : I st.f) : I (flowAxis x a k hh st).f := by
  unfold flowAxis
  simp only
  split <;> exact C.upd _ _ _ _ _ h

theorem closed_fuseOptFlow (C : Closed I) (x : FlowIn) (st : FlowSt) (h : I st.f) : I (fuseOptFlow x st).f := by
  unfold fuseOptFlow
  simp only
  split
  · exact C.ini _ _ h
  · split
    · exact C.ini _ _ h
    · split
      · exact h
      · exact closed_flowAxis C _ _ _ _ _ (closed_flowAxis C _ _ _ _ _ h)

theorem closed_fuseGpsYaw (C : Closed I) (x : GpsYawIn) (st : YawSt) (h : I st.f) : I (fuseGpsYaw x st).f := by
  unfold fuseGpsYaw
  simp only
  split
  · exact h
  · split
    · exact h
    · split
      · exact h
      · split
        · exact h
        · split
          · exact C.ini _ _ h
          · split
            · split
              · exact h
              · split <;> exact C.upd _ _ _ _ _ h
            · split <;> exact C.upd _ _ _ _ _ h

theorem closed_updateQuaternion (C : Closed I) (x : HdgIn) (innov variance gate : ℝ) (j : Fin 4 → ℝ) (st : YawSt) (h : I st.f) :
    I (updateQuaternion x innov variance gate j st).f := by
  unfold updateQuaternion
  simp only
  split
  · exact C.ini _ _ h
  · split
    · split
      · exact C.yaw _ _ _ _ _ _ (fun i hi => Or.inl hi) h
      · exact h
    · exact C.yaw _ _ _ _ _ _ (fun i hi => Or.inl hi) h

theorem closed_fuseHeading (C : Closed I) (x : HeadIn) (st : HeadSt) (h : I st.y.f) : I (fuseHeading x st).y.f := by
  have h321 : ∀ Rte yaw v z, I (fuseYaw321 x.h Rte yaw v z st.y).f := by
    intro Rte yaw v z
    unfold fuseYaw321
    split
    · exact h
    · exact closed_updateQuaternion C _ _ _ _ _ _ h
  have h312 : ∀ Rte yaw v z, I (fuseYaw312 x.h Rte yaw v z st.y).f := by
    intro Rte yaw v z
    unfold fuseYaw312
    split
    · exact h
    · exact closed_updateQuaternion C _ _ _ _ _ _ h
  unfold fuseHeading
  simp only
  split
  · exact h321 _ _ _ _
  · exact h312 _ _ _ _

end Ecl.Whole
