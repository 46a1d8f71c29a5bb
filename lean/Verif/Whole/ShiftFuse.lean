import Verif.Whole.ShiftGen

/-!
# The fusion functions commute with a displacement of the position
-/

namespace Ecl.Whole

open Ecl.Cov Ecl.Fusion

variable (d : Fin 3 → ℝ)

/-- the filter with displaced position -/
def Spec.displacedF (f : Filt) : Filt := { f with s := Spec.displaced d f.s }

local notation "δ" => Spec.displaced d
local notation "Δ" => Spec.displacedF d

@[simp] theorem dF_P (f : Filt) : (Δ f).P = f.P := rfl
@[simp] theorem dF_M (f : Filt) : (Δ f).M = f.M := rfl
@[simp] theorem dF_s (f : Filt) : (Δ f).s = δ f.s := rfl
@[simp] theorem dF_t (f : Filt) : (Δ f).timeCheck = f.timeCheck := rfl
@[simp] theorem dF_b (f : Filt) : (Δ f).badAccBias = f.badAccBias := rfl
@[simp] theorem dF_v (f : Filt) : (Δ f).prevVar = f.prevVar := rfl

theorem d_fuseState (s k : Vec ℝ) (v : ℝ) : fuseState (δ s) k v = δ (fuseState s k v) := by
  funext i
  by_cases h : i.val < 4
  · rw [disp_other _ _ _ (by omega)]
    unfold fuseState
    simp only [disp_0, disp_1, disp_2, disp_3, if_pos h]
    rw [disp_other _ _ _ (by omega)]
  · unfold fuseState Spec.displaced
    simp only [if_neg h]
    split_ifs <;> ring

theorem d_update (x : FixIn ℝ) (k h : Vec ℝ) (v : ℝ) (f : Filt) :
    update x k h v (Δ f) = (Δ (update x k h v f).1, (update x k h v f).2) := by
  unfold update
  simp only [dF_P, dF_t, dF_b]
  rcases measurementUpdate x k h f.timeCheck f.badAccBias f.P with ⟨P, t, b, _ | k'⟩
  · rfl
  · simp only [dF_s, d_fuseState]; rfl

theorem d_initCov (x : InitIn) (f : Filt) : initCov x (Δ f) = Δ (initCov x f) := rfl

theorem d_direct (x : VPIn) (v S : ℝ) (o : Fin 6) (st : VPSt) :
    fuseVelPosHeight x v S o { st with f := Δ st.f } =
      { fuseVelPosHeight x v S o st with f := Δ (fuseVelPosHeight x v S o st).f } := by
  unfold fuseVelPosHeight
  simp only [dF_P, dF_t, dF_b, dF_s, d_fuseState, dF_M]
  split <;> rfl

theorem d_direct_f (x : VPIn) (v S : ℝ) (o : Fin 6) (st : VPSt) :
    (fuseVelPosHeight x v S o { st with f := Δ st.f }).f = Δ (fuseVelPosHeight x v S o st).f := by
  rw [d_direct]

theorem d_hvel (x : VPIn) (i0 i1 g r0 r1 : ℝ) (st : VPSt) :
    (fuseHorizontalVelocity x i0 i1 g r0 r1 { st with f := Δ st.f }).st.f = Δ (fuseHorizontalVelocity x i0 i1 g r0 r1 st).st.f := by
  by_cases h : max (sq i0 / (sq g * (st.f.P 4 4 + r0))) (sq i1 / (sq g * (st.f.P 5 5 + r1))) ≤ 1
  · have h1 := d_direct d x i0 (st.f.P 4 4 + r0) 0 { st with tHvel := x.fx.now, rejHvel := false }
    have h2 := d_direct d x i1 (st.f.P 5 5 + r1) 1 (fuseVelPosHeight x i0 (st.f.P 4 4 + r0) 0 { st with tHvel := x.fx.now, rejHvel := false })
    simp only [fuseHorizontalVelocity, dF_P, h, if_true]
    rw [h1, h2]
  · simp only [fuseHorizontalVelocity, dF_P, h, if_false]

/-- `fuseVerticalVelocity` (EKF/vel_pos_fusion.cpp:79-112) with the innovation variance as an argument -/
noncomputable def vvelCore (x : VPIn) (i g v : ℝ) (st : VPSt) : VPOut :=
  let ratio := sq i / (sq g * v)
  let st := { st with vvelRatio := i / Real.sqrt v, tVvelTry := x.fx.now }
  let pass := decide (ratio ≤ 1)
  let lim := g * Real.sqrt v
  let innovation := if x.badVertAccel && !pass then constr i (-lim) lim else i
  let pass := if x.badVertAccel && !pass then true else pass
  if pass then
    let st := { st with tVvel := x.fx.now, rejVvel := false }
    ⟨fuseVelPosHeight x innovation v 2 st, (v, v), ratio, true⟩
  else ⟨{ st with rejVvel := true }, (v, v), ratio, false⟩

theorem d_vvel (x : VPIn) (i g r : ℝ) (st : VPSt) :
    (fuseVerticalVelocity x i g r { st with f := Δ st.f }).st.f = Δ (fuseVerticalVelocity x i g r st).st.f := by
  show (vvelCore x i g (st.f.P 6 6 + r) { st with f := Δ st.f }).st.f = Δ (vvelCore x i g (st.f.P 6 6 + r) st).st.f
  unfold vvelCore
  dsimp only
  split_ifs <;> first
    | rfl
    | exact d_direct_f d x _ _ 2 { st with vvelRatio := i / Real.sqrt (st.f.P 6 6 + r), tVvelTry := x.fx.now, tVvel := x.fx.now, rejVvel := false }

/-- `fuseHorizontalPosition` (EKF/vel_pos_fusion.cpp:114-147) with the innovation variances as arguments -/
noncomputable def hposCore (x : VPIn) (i0 i1 g v0 v1 : ℝ) (inhibitGate : Bool) (st : VPSt) : VPOut :=
  let ratio := max (sq i0 / (sq g * v0)) (sq i1 / (sq g * v1))
  if ratio ≤ 1 ∨ inhibitGate = true then
    if inhibitGate = true ∧ ratio > sq (100 / g) then ⟨st, (v0, v1), ratio, false⟩
    else
      let st := if !x.asOdom then { st with tHpos := x.fx.now } else { st with tDelpos := x.fx.now }
      let st := { st with rejHpos := false }
      let st := fuseVelPosHeight x i0 v0 3 st
      let st := fuseVelPosHeight x i1 v1 4 st
      ⟨st, (v0, v1), ratio, true⟩
  else ⟨{ st with rejHpos := true }, (v0, v1), ratio, false⟩

theorem d_hpos (x : VPIn) (i0 i1 g r0 r1 : ℝ) (b : Bool) (st : VPSt) :
    (fuseHorizontalPosition x i0 i1 g r0 r1 b { st with f := Δ st.f }).st.f = Δ (fuseHorizontalPosition x i0 i1 g r0 r1 b st).st.f := by
  show (hposCore x i0 i1 g (st.f.P 7 7 + r0) (st.f.P 8 8 + r1) b { st with f := Δ st.f }).st.f =
    Δ (hposCore x i0 i1 g (st.f.P 7 7 + r0) (st.f.P 8 8 + r1) b st).st.f
  generalize st.f.P 7 7 + r0 = v0
  generalize st.f.P 8 8 + r1 = v1
  unfold hposCore
  dsimp only
  split
  · split
    · rfl
    · cases x.asOdom
      · have h1 := d_direct d x i0 v0 3 { st with tHpos := x.fx.now, rejHpos := false }
        have h2 := d_direct d x i1 v1 4 (fuseVelPosHeight x i0 v0 3 { st with tHpos := x.fx.now, rejHpos := false })
        simp only [Bool.not_false, if_true]
        rw [h1, h2]
      · have h1 := d_direct d x i0 v0 3 { st with tDelpos := x.fx.now, rejHpos := false }
        have h2 := d_direct d x i1 v1 4 (fuseVelPosHeight x i0 v0 3 { st with tDelpos := x.fx.now, rejHpos := false })
        simp only [Bool.not_true, Bool.false_eq_true, if_false]
        rw [h1, h2]
  · rfl

/-- `fuseVerticalPosition` (EKF/vel_pos_fusion.cpp:149-181) with the innovation variance as an argument -/
noncomputable def vposCore (x : VPIn) (i g v : ℝ) (st : VPSt) : VPOut :=
  let ratio := sq i / (sq g * v)
  let st := { st with vposRatio := i / Real.sqrt v, tVposTry := x.fx.now }
  let pass := decide (ratio ≤ 1)
  let lim := g * Real.sqrt v
  let innovation := if x.badVertAccel && !pass then constr i (-lim) lim else i
  let pass := if x.badVertAccel && !pass then true else pass
  if pass then
    let st := { st with tHgt := x.fx.now, rejVpos := false }
    ⟨fuseVelPosHeight x innovation v 5 st, (v, v), ratio, true⟩
  else ⟨{ st with rejVpos := true }, (v, v), ratio, false⟩

theorem d_vpos (x : VPIn) (i g r : ℝ) (st : VPSt) :
    (fuseVerticalPosition x i g r { st with f := Δ st.f }).st.f = Δ (fuseVerticalPosition x i g r st).st.f := by
  show (vposCore x i g (st.f.P 9 9 + r) { st with f := Δ st.f }).st.f = Δ (vposCore x i g (st.f.P 9 9 + r) st).st.f
  unfold vposCore
  dsimp only
  split_ifs <;> first
    | rfl
    | exact d_direct_f d x _ _ 5 { st with vposRatio := i / Real.sqrt (st.f.P 9 9 + r), tVposTry := x.fx.now, tHgt := x.fx.now, rejVpos := false }

theorem d_magRelated (x : MagIn) (f : Filt) : resetMagRelated x (Δ f) = Δ (resetMagRelated x f) := rfl

theorem d_setMagNE (s : Vec ℝ) (n e : ℝ) : setMagNE (δ s) n e = δ (setMagNE s n e) := by
  funext i
  simp only [setMagNE, Spec.displaced]
  split_ifs <;> first | rfl | omega

theorem d_declination (x : DeclIn) (s : Vec ℝ) : getMagDeclination x (δ s) = getMagDeclination x s := rfl

theorem d_limitDecl (x : DeclIn) (s : Vec ℝ) : limitDeclination x (δ s) = δ (limitDeclination x s) := by
  unfold limitDeclination
  simp only [disp_16, disp_17, d_declination, d_setMagNE]
  have hs : ∀ (c e : Prop) [Decidable c] [Decidable e] (p q r : Vec ℝ),
      (if c then δ p else if e then δ q else δ r) = δ (if c then p else if e then q else r) := by
    intros; split_ifs <;> rfl
  have h2 : ∀ (c e : Prop) [Decidable c] [Decidable e] (p q : Vec ℝ) (u v : ℝ),
      (if c then ((if e then δ p else δ q), u) else (δ s, v)) = (δ (if c then ((if e then p else q), u) else (s, v)).1, (if c then ((if e then p else q), u) else (s, v)).2) := by
    intros; split_ifs <;> rfl
  rw [h2]
  simp only [d_setMagNE, disp_16, disp_17, hs]

theorem d_magAxis (x : MagIn) (a : Fin 3) (st : MagSt) :
    magAxis x a { st with f := Δ st.f } = ({ (magAxis x a st).1 with f := Δ (magAxis x a st).1.f }, (magAxis x a st).2) := by
  have e1 : ∀ P R, magS a P (δ st.f.s) R = magS a P st.f.s R := by
    intro P R; unfold magS; simp only [Shift.MagX_S, Shift.MagY_S, Shift.MagZ_S]
  have e2 : ∀ P R, magRow a P (δ st.f.s) R = magRow a P st.f.s R := by
    intro P R; unfold magRow; simp only [Shift.MagX_hList, Shift.MagY_hList, Shift.MagZ_hList]
  have e3 : ∀ P R b, magGain b a P (δ st.f.s) R = magGain b a P st.f.s R := by
    intro P R b; unfold magGain; simp only [Shift.MagX_gain, Shift.MagY_gain, Shift.MagZ_gain]
  unfold magAxis
  simp only [dF_P, dF_s, e1, e2, e3, d_update, d_magRelated]
  split_ifs <;> first | rfl | (simp only [d_limitDecl]; rfl)

theorem d_magLoop (x : MagIn) (st : MagSt) : (magLoop x { st with f := Δ st.f }).f = Δ (magLoop x st).f := by
  unfold magLoop
  simp only [d_magAxis]
  split_ifs <;> rfl

theorem d_magLoop' (x : MagIn) (st : MagSt) (f : Filt) (h : st.f = Δ f) : (magLoop x st).f = Δ (magLoop x { st with f := f }).f := by
  rw [← d_magLoop]
  show (magLoop x st).f = (magLoop x { st with f := Δ f }).f
  rw [← h]

/-- `fuseMag` (EKF/mag_fusion.cpp:48-418) with innovation variances and innovations as arguments -/
noncomputable def magCore (x : MagIn) (S0 S1 S2 : ℝ) (innov : V3 ℝ) (st : MagSt) : MagSt :=
  let R := magR x
  let st := { st with innovVar := set3 st.innovVar 0 S0 }
  if S0 < R then { st with bad := set3 st.bad 0 true, f := resetMagRelated x st.f }
  else
    let st := { st with bad := set3 st.bad 0 false }
    let st := { st with innovVar := set3 (set3 st.innovVar 1 S1) 2 S2 }
    if S1 < R then { st with bad := set3 st.bad 1 true, f := resetMagRelated x st.f }
    else
      let st := { st with bad := set3 st.bad 1 false }
      if S2 < R then { st with bad := set3 st.bad 2 true, f := resetMagRelated x st.f }
      else
        let st := { st with bad := set3 st.bad 2 false }
        let innov := if x.synthZ then set3 innov 2 0 else innov
        let ratio : V3 ℝ := fun i => sq (innov i) / (sq (max x.gate 1) * st.innovVar i)
        let st := { st with innov := innov, testRatio := ratio, reject := fun i => decide (ratio i > 1), yawRatio := 0 }
        if ratio 0 > 1 ∨ ratio 1 > 1 ∨ ratio 2 > 1 then st
        else magLoop x st

open scoped Matrix in
/-- predicted minus measured field, EKF/mag_fusion.cpp:146-153 -/
noncomputable def magInnov3 (x : MagIn) (s : Vec ℝ) : V3 ℝ :=
  let rot := Utils.quatToInverseRotMat (attQuat s) *ᵥ ![s 16, s 17, s 18]
  ![rot 0 + s 19 - x.mag 0, rot 1 + s 20 - x.mag 1, rot 2 + s 21 - x.mag 2]

theorem fuseMag_core (x : MagIn) (st : MagSt) : fuseMag x st =
    magCore x (MagX.S st.f.P st.f.s (magR x) 0 0) (MagIV.S1 st.f.P st.f.s (magR x) 0 0) (MagIV.S2 st.f.P st.f.s (magR x) 0 0) (magInnov3 x st.f.s) st := rfl

theorem d_fuseMag (x : MagIn) (st : MagSt) : (fuseMag x { st with f := Δ st.f }).f = Δ (fuseMag x st).f := by
  rw [fuseMag_core, fuseMag_core]
  dsimp only
  rw [dF_s, dF_P, Shift.MagX_S, Shift.MagIV_S1, Shift.MagIV_S2, show magInnov3 x (δ st.f.s) = magInnov3 x st.f.s from rfl]
  generalize MagX.S st.f.P st.f.s (magR x) 0 0 = S0
  generalize MagIV.S1 st.f.P st.f.s (magR x) 0 0 = S1
  generalize MagIV.S2 st.f.P st.f.s (magR x) 0 0 = S2
  generalize magInnov3 x st.f.s = v
  unfold magCore
  dsimp only
  split
  · rfl
  split
  · rfl
  split
  · rfl
  generalize (if x.synthZ = true then set3 v 2 0 else v) = u
  split
  · rfl
  · exact d_magLoop' d x _ st.f rfl

theorem d_fuseDecl (x : DeclIn) (fx : FixIn ℝ) (sg : ℝ) (st : DeclSt) :
    (fuseDeclination x fx sg { st with f := Δ st.f }).f = Δ (fuseDeclination x fx sg st).f := by
  unfold fuseDeclination
  simp only [dF_P, dF_s, Shift.Decl_S, Shift.Decl_hList, Shift.Decl_gain, disp_16, disp_17, d_declination, d_update]
  split_ifs <;> first | rfl | (simp only [d_limitDecl]; rfl)

theorem d_windStates (x : WindResetIn) (s : Vec ℝ) : resetWindStates x (δ s) = δ (resetWindStates x s) := by
  funext i
  unfold resetWindStates
  simp only [disp_att, disp_4, disp_5]
  by_cases h : i = 22
  · subst h; rfl
  · by_cases h2 : i = 23
    · subst h2; rfl
    · simp [Spec.displaced, h, h2]

theorem d_resetWind (x : WindResetIn) (f : Filt) : resetWind x (Δ f) = Δ (resetWind x f) := by
  unfold resetWind
  simp only [dF_s, dF_M, d_windStates, disp_att, disp_22, disp_23]
  rfl

theorem d_resetFull (x : InitIn) (f : Filt) : resetFull x (Δ f) = Δ (resetFull x f) := by
  unfold resetFull
  simp only [d_initCov]
  unfold Spec.displacedF
  simp only
  congr 1
  funext i
  by_cases h : i = 22
  · subst h; rfl
  · by_cases h2 : i = 23
    · subst h2; rfl
    · simp [Spec.displaced, h, h2]

theorem d_windFault (w : WindResetIn) (ini : InitIn) (b : Bool) (f : Filt) : windFault w ini b (Δ f) = Δ (windFault w ini b f) := by
  unfold windFault
  split
  · exact d_resetWind d w f
  · exact d_resetFull d ini f

theorem d_airspeed (x : AspIn) (st : AspSt) : (fuseAirspeed x { st with f := Δ st.f }).f = Δ (fuseAirspeed x st).f := by
  unfold fuseAirspeed
  simp only [dF_P, dF_s, Shift.Asp_HK2, Shift.Asp_S, Shift.Asp_hList, Shift.Asp_gain, d_update, d_windFault]
  split_ifs <;> rfl

theorem d_relWind (s : Vec ℝ) : relWindBody (δ s) = relWindBody s := rfl

theorem d_sideslip (x : BetaIn) (st : BetaSt) : (fuseSideslip x { st with f := Δ st.f }).f = Δ (fuseSideslip x st).f := by
  unfold fuseSideslip
  simp only [dF_P, dF_s, Shift.Beta_S, Shift.Beta_hList, Shift.Beta_gain, d_update, d_windFault, d_relWind]
  split_ifs <;> rfl

/-- one axis of `fuseDrag` (EKF/drag_fusion.cpp:83-268) with bias, innovation variance, row and gain as arguments -/
noncomputable def dragCore (x : DragIn) (w : V3 ℝ) (a : Fin 2) (mea S : ℝ) (l : List (Fin N × ℝ)) (k : Vec ℝ) (st : DragSt) : DragSt × Bool :=
  let R := max x.noise (1 / 2)
  let rho := max x.airDensity (1 / 10)
  let bci := if a = 0 then 1 / x.bcoefX else 1 / x.bcoefY
  let st := { st with innovVar := setAt st.innovVar a S }
  if S < R then (st, false)
  else
    let H := sparse l
    let wa := w (a.castSucc)
    let sign : ℝ := if wa ≥ 0 then 1 else -1
    let pred := -(1 / 2) * bci * rho * sq wa * sign
    let innov := pred - mea
    let ratio := sq innov / (25 * S)
    let st := { st with innov := setAt st.innov a innov, testRatio := setAt st.testRatio a ratio }
    if ratio ≤ 1 then ({ st with f := (update x.fx k H innov st.f).1 }, true) else (st, true)

/-- the observed drag acceleration and the slope of the drag, EKF/drag_fusion.cpp:86-104 -/
noncomputable def dragMea (x : DragIn) (a : Fin 2) (s : Vec ℝ) : ℝ := x.accel a - s (biasIdx a) / x.dt
noncomputable def dragK (x : DragIn) (a : Fin 2) (s : Vec ℝ) : ℝ :=
  let rho := max x.airDensity (1 / 10)
  let bci := if a = 0 then 1 / x.bcoefX else 1 / x.bcoefY
  max (1 / 10) (rho * bci * Real.sqrt (2 * |dragMea x a s| / (bci * rho)))

theorem dragAxis_core (x : DragIn) (w : V3 ℝ) (a : Fin 2) (st : DragSt) : dragAxis x w a st =
    dragCore x w a (dragMea x a st.f.s)
      (if a = 0 then DragX.S st.f.P st.f.s (max x.noise (1 / 2)) (dragK x a st.f.s) 0 else DragY.S st.f.P st.f.s (max x.noise (1 / 2)) (dragK x a st.f.s) 0)
      (if a = 0 then DragX.hList st.f.P st.f.s (max x.noise (1 / 2)) (dragK x a st.f.s) 0 else DragY.hList st.f.P st.f.s (max x.noise (1 / 2)) (dragK x a st.f.s) 0)
      (if a = 0 then DragX.gain st.f.P st.f.s (max x.noise (1 / 2)) (dragK x a st.f.s) 0 else DragY.gain st.f.P st.f.s (max x.noise (1 / 2)) (dragK x a st.f.s) 0) st := rfl

theorem d_dragAxis (x : DragIn) (w : V3 ℝ) (a : Fin 2) (st : DragSt) :
    dragAxis x w a { st with f := Δ st.f } = ({ (dragAxis x w a st).1 with f := Δ (dragAxis x w a st).1.f }, (dragAxis x w a st).2) := by
  have hb : dragMea x a (δ st.f.s) = dragMea x a st.f.s := by
    unfold dragMea; rw [disp_other _ _ (biasIdx a) (Or.inr (by show 9 < 13 + a.val; omega))]
  have hk : dragK x a (δ st.f.s) = dragK x a st.f.s := by unfold dragK; rw [hb]
  rw [dragAxis_core, dragAxis_core]
  dsimp only
  rw [dF_s, dF_P, hb, hk, Shift.DragX_S, Shift.DragY_S, Shift.DragX_hList, Shift.DragY_hList, Shift.DragX_gain, Shift.DragY_gain]
  generalize (if a = 0 then DragX.S st.f.P st.f.s (max x.noise (1 / 2)) (dragK x a st.f.s) 0 else DragY.S st.f.P st.f.s (max x.noise (1 / 2)) (dragK x a st.f.s) 0) = S
  generalize (if a = 0 then DragX.hList st.f.P st.f.s (max x.noise (1 / 2)) (dragK x a st.f.s) 0 else DragY.hList st.f.P st.f.s (max x.noise (1 / 2)) (dragK x a st.f.s) 0) = l
  generalize (if a = 0 then DragX.gain st.f.P st.f.s (max x.noise (1 / 2)) (dragK x a st.f.s) 0 else DragY.gain st.f.P st.f.s (max x.noise (1 / 2)) (dragK x a st.f.s) 0) = k
  generalize dragMea x a st.f.s = m
  unfold dragCore
  dsimp only
  generalize (if a = 0 then 1 / x.bcoefX else 1 / x.bcoefY) = bci
  generalize (if w a.castSucc ≥ 0 then (1 : ℝ) else -1) = sg
  by_cases h : S < max x.noise (1 / 2)
  · rw [if_pos h, if_pos h]
  rw [if_neg h, if_neg h]
  split
  · rw [d_update]
  · rfl

theorem d_drag (x : DragIn) (st : DragSt) : (fuseDrag x { st with f := Δ st.f }).f = Δ (fuseDrag x st).f := by
  unfold fuseDrag
  simp only [dF_s, d_relWind, d_dragAxis]
  split
  · rfl
  split <;> rfl

theorem d_flowAxis (x : FlowIn) (a : Fin 2) (k h : Vec ℝ) (t : ℝ) (st : FlowSt) :
    flowAxis { x with terrain := t } a k h { st with f := Δ st.f } = { flowAxis x a k h st with f := Δ (flowAxis x a k h st).f } := by
  unfold flowAxis
  simp only [d_update]
  split <;> rfl

/-- the terrain estimate moves with the frame -/
theorem d_flow (x : FlowIn) (st : FlowSt) :
    (fuseOptFlow { x with terrain := x.terrain + d 2 } { st with f := Δ st.f }).f = Δ (fuseOptFlow x st).f := by
  have hr : flowRange { x with terrain := x.terrain + d 2 } (δ st.f.s) = flowRange x st.f.s := by
    unfold flowRange
    simp only [disp_9, disp_att]
    congr 3; ring
  have hv : flowVelBody { x with terrain := x.terrain + d 2 } (δ st.f.s) = flowVelBody x st.f.s := rfl
  have hm : flowMeasVar { x with terrain := x.terrain + d 2 } = flowMeasVar x := rfl
  have ht : flowRate { x with terrain := x.terrain + d 2 } = flowRate x := rfl
  unfold fuseOptFlow
  simp only [dF_P, dF_s, hr, hv, hm, ht, Shift.FlowX_S, Shift.FlowY_S, Shift.FlowX_hList, Shift.FlowY_hList, Shift.FlowX_gain, Shift.FlowY_gain, d_initCov]
  split
  · rfl
  split
  · rfl
  split
  · rfl
  · set st1 : FlowSt := { st with velBody := _, velNE := _, innov := _, innovVar := _, testRatio := _, reject := _ } with h1
    have h2 := d_flowAxis d x 0 (FlowX.gain st.f.P st.f.s (flowMeasVar x) (flowRange x st.f.s) 0)
      (sparse (FlowX.hList st.f.P st.f.s (flowMeasVar x) (flowRange x st.f.s) 0)) (x.terrain + d 2) st1
    dsimp only [st1] at h2 ⊢
    rw [h2]
    rw [d_flowAxis]
    rfl

theorem d_applyYaw (x : FixIn ℝ) (k : Vec ℝ) (j : Fin 4 → ℝ) (v : ℝ) (f : Filt) :
    applyYaw x k j v (Δ f) = (Δ (applyYaw x k j v f).1, (applyYaw x k j v f).2) := by
  unfold applyYaw
  simp only [dF_P, dF_s, dF_t, dF_b, dF_M, d_fuseState]
  split <;> rfl

theorem d_updateQuat (x : HdgIn) (v r g : ℝ) (j : Fin 4 → ℝ) (st : YawSt) :
    updateQuaternion x v r g j { st with f := Δ st.f } = { updateQuaternion x v r g j st with f := Δ (updateQuaternion x v r g j st).f } := by
  unfold updateQuaternion
  simp only [dF_P, d_applyYaw, d_initCov]
  split_ifs <;> rfl

theorem d_yaw321 (x : HdgIn) (Rte : M3 ℝ) (y v : ℝ) (z : Bool) (st : YawSt) :
    fuseYaw321 x Rte y v z { st with f := Δ st.f } = { fuseYaw321 x Rte y v z st with f := Δ (fuseYaw321 x Rte y v z st).f } := by
  have h : yawRow321 (δ st.f.s) = yawRow321 st.f.s := rfl
  unfold fuseYaw321
  simp only [dF_s, h]
  split
  · rfl
  · exact d_updateQuat d x _ _ _ _ st

theorem d_yaw312 (x : HdgIn) (Rte : M3 ℝ) (y v : ℝ) (z : Bool) (st : YawSt) :
    fuseYaw312 x Rte y v z { st with f := Δ st.f } = { fuseYaw312 x Rte y v z st with f := Δ (fuseYaw312 x Rte y v z st).f } := by
  have h : yawRow312 (δ st.f.s) = yawRow312 st.f.s := rfl
  unfold fuseYaw312
  simp only [dF_s, h]
  split
  · rfl
  · exact d_updateQuat d x _ _ _ _ st

open scoped Matrix in
open Classical in
/-- `fuseHeading` (EKF/mag_fusion.cpp:703-828) with the bias corrected measurement, declination and attitude as arguments -/
noncomputable def headCore (x : HeadIn) (Rte : M3 ℝ) (mc : V3 ℝ) (dec tr : ℝ) (st : HeadSt) : HeadSt :=
  let R0 := if x.magHdg then sq x.noise else if x.evYaw then x.evVar else 1 / 100
  let st := { st with Rte := Rte }
  if Utils.shouldUse321 Rte then
    let pred := Utils.getEuler321Yaw Rte
    let m := Utils.updateEuler321YawInRotMat 0 Rte *ᵥ mc
    let meas := if x.magHdg then -atan2 (m 1) (m 0) + dec
      else if x.evYaw then Utils.getEuler321YawQ x.evQuat else pred
    let c : ℝ × ℝ × Bool × ℝ :=
      if x.inhibited then
        if !x.atRest then
          if tr > x.quatMaxVar then (meas, 1 / 4, true, pred) else (meas, R0, false, pred)
        else (st.lastStatic, R0, false, st.lastStatic)
      else (meas, R0, false, pred)
    { st with y := fuseYaw321 x.h Rte c.1 c.2.1 c.2.2.1 st.y, lastStatic := c.2.2.2 }
  else
    let pred := Utils.getEuler312Yaw Rte
    let m := Utils.updateEuler312YawInRotMat 0 Rte *ᵥ mc
    let meas := if x.magHdg then -atan2 (m 1) (m 0) + dec
      else if x.evYaw then Utils.getEuler312YawQ x.evQuat else pred
    let c : ℝ × ℝ × Bool × ℝ :=
      if x.inhibited then
        if !x.atRest then
          if tr > x.quatMaxVar then (meas, 1 / 4, true, pred) else (meas, R0, false, pred)
        else (st.lastStatic, R0, false, st.lastStatic)
      else (meas, R0, false, pred)
    { st with y := fuseYaw312 x.h Rte c.1 c.2.1 c.2.2.1 st.y, lastStatic := c.2.2.2 }

theorem fuseHeading_core (x : HeadIn) (st : HeadSt) : fuseHeading x st =
    headCore x (attQuat st.y.f.s).dcm (magCorr x st.y.f.s) (getMagDeclination x.decl st.y.f.s)
      (st.y.f.P 0 0 + st.y.f.P 1 1 + st.y.f.P 2 2 + st.y.f.P 3 3) st := rfl

theorem d_heading (x : HeadIn) (st : HeadSt) :
    fuseHeading x { st with y := { st.y with f := Δ st.y.f } } =
      { fuseHeading x st with y := { (fuseHeading x st).y with f := Δ (fuseHeading x st).y.f } } := by
  have hm : magCorr x (δ st.y.f.s) = magCorr x st.y.f.s := by
    funext i; unfold magCorr; rw [disp_other _ _ _ (Or.inr (by show 9 < 19 + i.val; omega))]
  rw [fuseHeading_core, fuseHeading_core]
  dsimp only
  rw [dF_s, dF_P, disp_att, hm, d_declination]
  generalize (attQuat st.y.f.s).dcm = Rte
  generalize magCorr x st.y.f.s = mc
  generalize getMagDeclination x.decl st.y.f.s = dec
  generalize st.y.f.P 0 0 + st.y.f.P 1 1 + st.y.f.P 2 2 + st.y.f.P 3 3 = tr
  unfold headCore
  dsimp only
  by_cases h : Utils.shouldUse321 Rte
  · rw [if_pos h, if_pos h, d_yaw321]
  · rw [if_neg h, if_neg h, d_yaw312]

/-- `fuseGpsYaw` (EKF/gps_yaw_fusion.cpp:49-195) with the computed observation equations as arguments -/
noncomputable def gpsYawCore (x : GpsYawIn) (h9 h17 h19 S : ℝ) (l : List (Fin N × ℝ)) (k : Vec ℝ) (st : YawSt) : YawSt :=
  let measured := wrapPi (x.yaw + x.off)
  let ant := antVecEf x.Rte x.off
  if |ant 2| > Real.cos (30 * (Real.pi / 180)) then st else
  let predicted := atan2 (ant 1) (ant 0)
  let R := sq (max x.noise (1 / 100))
  if |h9| < 1 / 1000 then st else
  if |h17| < 1 / 1000 then st else
  if |h19| < 1 / 1000000 then st else
  let st := { st with innovVar := S }
  if S < R then { st with f := initCov x.ini st.f, bad := true } else
  let st := { st with bad := false }
  let gate := mmax x.gate 1
  let innov := wrapPi (predicted - measured)
  let st := { st with innov := innov, testRatio := sq innov / (sq gate * S), magTest := fun _ => 0 }
  let H := sparse l
  let go (st : YawSt) : YawSt :=
    let r := update x.fx k H st.innov st.f
    let st := { st with f := r.1, bad := !r.2 }
    if r.2 then { st with lastGpsFuse := x.now } else st
  if st.testRatio > 1 then
    let st := { st with reject := true }
    if x.inAir then st
    else
      let lim := Real.sqrt (sq gate * S)
      go { st with innov := constrain st.innov (-lim) lim }
  else go { st with reject := false }

theorem fuseGpsYaw_core (x : GpsYawIn) (st : YawSt) : fuseGpsYaw x st =
    gpsYawCore x (GpsYaw.HK9 st.f.P st.f.s (sq (max x.noise (1 / 100))) (Real.sin x.off) (Real.cos x.off))
      (GpsYaw.HK17 st.f.P st.f.s (sq (max x.noise (1 / 100))) (Real.sin x.off) (Real.cos x.off))
      (GpsYaw.HK19_inverse st.f.P st.f.s (sq (max x.noise (1 / 100))) (Real.sin x.off) (Real.cos x.off))
      (GpsYaw.S st.f.P st.f.s (sq (max x.noise (1 / 100))) (Real.sin x.off) (Real.cos x.off))
      (GpsYaw.hList st.f.P st.f.s (sq (max x.noise (1 / 100))) (Real.sin x.off) (Real.cos x.off))
      (GpsYaw.gain st.f.P st.f.s (sq (max x.noise (1 / 100))) (Real.sin x.off) (Real.cos x.off)) st := rfl

theorem d_gpsYaw (x : GpsYawIn) (st : YawSt) : (fuseGpsYaw x { st with f := Δ st.f }).f = Δ (fuseGpsYaw x st).f := by
  rw [fuseGpsYaw_core, fuseGpsYaw_core]
  dsimp only
  rw [dF_s, dF_P, Shift.GpsYaw_HK9, Shift.GpsYaw_HK17, Shift.GpsYaw_HK19_inverse, Shift.GpsYaw_S, Shift.GpsYaw_hList, Shift.GpsYaw_gain]
  generalize GpsYaw.HK9 st.f.P st.f.s _ _ _ = h9
  generalize GpsYaw.HK17 st.f.P st.f.s _ _ _ = h17
  generalize GpsYaw.HK19_inverse st.f.P st.f.s _ _ _ = h19
  generalize GpsYaw.S st.f.P st.f.s _ _ _ = S
  generalize GpsYaw.hList st.f.P st.f.s _ _ _ = l
  generalize GpsYaw.gain st.f.P st.f.s _ _ _ = k
  unfold gpsYawCore
  by_cases c1 : |antVecEf x.Rte x.off 2| > Real.cos (30 * (Real.pi / 180))
  · simp only [c1, if_true]
  by_cases c2 : |h9| < 1 / 1000
  · simp only [c1, c2, if_true, if_false]
  by_cases c3 : |h17| < 1 / 1000
  · simp only [c1, c2, c3, if_true, if_false]
  by_cases c4 : |h19| < 1 / 1000000
  · simp only [c1, c2, c3, c4, if_true, if_false]
  by_cases c5 : S < sq (max x.noise (1 / 100))
  · simp only [c1, c2, c3, c4, c5, if_true, if_false, d_initCov]
  simp only [c1, c2, c3, c4, c5, if_false]
  split
  · split
    · rfl
    · rw [d_update]
      split <;> rfl
  · rw [d_update]
    split <;> rfl

end Ecl.Whole
