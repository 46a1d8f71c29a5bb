import Verif.Fusion.YawProps
import Mathlib.Analysis.SpecialFunctions.Trigonometric.Angle

/-!
# Heading fusion: theorems about `fuseHeading` (C85) and the synthetic magnetometer Z (C86)
-/

set_option linter.unusedVariables false

namespace Ecl.Fusion

open Ecl.Cov
open scoped Matrix

theorem wrapPi_turns {x : ℝ} (h : ∃ k : ℤ, x = k * (2 * Real.pi)) : wrapPi x = 0 := by
  obtain ⟨h1, h2⟩ := wrapPi_spec x
  obtain ⟨k, hk⟩ := h
  have hp := Real.pi_pos
  exact wrap_unique (x := x) h1 ⟨by linarith, hp⟩ h2 ⟨k, by rw [hk]; ring⟩

theorem angle_of_cos_sin {a b : ℝ} (hc : Real.cos a = Real.cos b) (hs : Real.sin a = Real.sin b) : ∃ k : ℤ, a - b = 2 * Real.pi * k :=
  Real.Angle.angle_eq_iff_two_pi_dvd_sub.mp (Real.Angle.cos_sin_inj hc hs)

/-- earth field turned back by the yaw: what an ideal magnetometer shows after removing the yaw from the attitude -/
theorem mag_yaw_removed {R : M3 ℝ} (h : Utils.IsRotation R) (b : Bool) (hb : b = true ↔ Utils.shouldUse321 R) (m : V3 ℝ) :
    let ψ := Spec.yawOfMat b R
    let e := R *ᵥ m
    let m' := (if b then Utils.updateEuler321YawInRotMat 0 R else Utils.updateEuler312YawInRotMat 0 R) *ᵥ m
    m' 0 = Real.cos ψ * e 0 + Real.sin ψ * e 1 ∧ m' 1 = -Real.sin ψ * e 0 + Real.cos ψ * e 1 := by
  intro ψ e m'
  have : m' = !![Real.cos ψ, Real.sin ψ, 0; -Real.sin ψ, Real.cos ψ, 0; 0, 0, 1] *ᵥ e := by
    show _ *ᵥ m = _
    rw [yaw_removed h b hb, Matrix.mulVec_mulVec]
  rw [this]
  constructor <;> simp [Matrix.mulVec, dotProduct, Fin.sum_univ_three]

/-- heading measured by a magnetometer: declination minus the angle of the horizontal field in the yaw-removed frame -/
noncomputable def Spec.magHeading (ψ decl : ℝ) (e : V3 ℝ) : ℝ :=
  -atan2 (-Real.sin ψ * e 0 + Real.cos ψ * e 1) (Real.cos ψ * e 0 + Real.sin ψ * e 1) + decl

/-- **C85 (ideal magnetometer).** If the field in the earth frame has a horizontal component, whose declination is the one in use,
the magnetic heading equals the yaw of the attitude: the innovation is exactly zero, for every attitude. -/
theorem magHeading_exact (ψ : ℝ) (e : V3 ℝ) (he : e 0 ^ 2 + e 1 ^ 2 ≠ 0) :
    wrapPi (ψ - wrapPi (Spec.magHeading ψ (atan2 (e 1) (e 0)) e)) = 0 := by
  have hpos : 0 < e 0 ^ 2 + e 1 ^ 2 := lt_of_le_of_ne (by positivity) (Ne.symm he)
  set δ := atan2 (e 1) (e 0)
  have hr := Real.sqrt_pos.mpr hpos
  set r := Real.sqrt (e 0 ^ 2 + e 1 ^ 2)
  have h0 : e 0 = r * Real.cos δ := by rw [cos_atan2 he]; field_simp; rfl
  have h1 : e 1 = r * Real.sin δ := by rw [sin_atan2]; field_simp; rfl
  set α := atan2 (-Real.sin ψ * e 0 + Real.cos ψ * e 1) (Real.cos ψ * e 0 + Real.sin ψ * e 1)
  have hx : Real.cos ψ * e 0 + Real.sin ψ * e 1 = r * Real.cos (δ - ψ) := by rw [h0, h1, Real.cos_sub]; ring
  have hy : -Real.sin ψ * e 0 + Real.cos ψ * e 1 = r * Real.sin (δ - ψ) := by rw [h0, h1, Real.sin_sub]; ring
  have hn : (r * Real.cos (δ - ψ)) ^ 2 + (r * Real.sin (δ - ψ)) ^ 2 = r ^ 2 := by
    rw [mul_pow, mul_pow, ← mul_add, add_comm, Real.sin_sq_add_cos_sq, mul_one]
  have hc : Real.cos α = Real.cos (δ - ψ) := by
    show Real.cos (atan2 _ _) = _
    rw [hx, hy, cos_atan2 (by rw [hn]; positivity), hn, Real.sqrt_sq hr.le]; field_simp
  have hs : Real.sin α = Real.sin (δ - ψ) := by
    show Real.sin (atan2 _ _) = _
    rw [hx, hy, sin_atan2, hn, Real.sqrt_sq hr.le]; field_simp
  obtain ⟨k, hk⟩ := angle_of_cos_sin hc hs
  obtain ⟨-, l, hl⟩ := wrapPi_spec (Spec.magHeading ψ δ e)
  apply wrapPi_turns
  refine ⟨k + l, ?_⟩
  rw [hl]
  show ψ - (-α + δ - _) = _
  push_cast
  linarith

example : ((fun i => if i = 0 then 1 else 0 : V3 ℝ) 0) ^ 2 + ((fun i => if i = 0 then 1 else 0 : V3 ℝ) 1) ^ 2 ≠ 0 := by simp

/-- heading observation offered by `fuseHeading`: magnetometer, else vision, else the prediction itself -/
noncomputable def Spec.headingMeas (x : HeadIn) (b : Bool) (s : Vec ℝ) : ℝ :=
  let R := (attQuat s).dcm
  let ψ := Spec.yawOfMat b R
  if x.magHdg then Spec.magHeading ψ (if x.decl.alignedInFlight then Spec.declOf s else Spec.declRef x.decl)
    (R *ᵥ fun i => x.mag i - s ⟨19 + i.val, by have := i.isLt; show _ < 24; omega⟩)
  else if x.evYaw then Spec.yawOfMat b x.evQuat.dcm
  else ψ

/-- variance offered with it -/
noncomputable def Spec.headingVar (x : HeadIn) : ℝ := if x.magHdg then x.noise ^ 2 else if x.evYaw then x.evVar else 1 / 100

/-- **C85.** Heading fusion uses the Euler sequence that is regular at the current attitude and offers the yaw fusion: the
heading measurement with its variance when yaw fusion is not inhibited; when inhibited and moving with a large quaternion variance a
zero innovation of variance 0.25; when inhibited and moving otherwise the *measurement all the same*; when inhibited and at rest the
yaw stored while last moving (which is then kept). -/
theorem heading_spec (x : HeadIn) (st : HeadSt) (hq : (attQuat st.y.f.s).normSq = 1) (b : Bool)
    (hb : b = true ↔ Utils.shouldUse321 (attQuat st.y.f.s).dcm) :
    let s := st.y.f.s
    let P := st.y.f.P
    let R := (attQuat s).dcm
    let ψ := Spec.yawOfMat b R
    let r := fuseHeading x st
    r.Rte = R ∧
    (x.inhibited = false → r.y = fuseYaw b x.h R (Spec.headingMeas x b s) (Spec.headingVar x) false st.y ∧ r.lastStatic = ψ) ∧
    (x.inhibited = true → x.atRest = false → x.quatMaxVar < P 0 0 + P 1 1 + P 2 2 + P 3 3 →
      r.y = fuseYaw b x.h R (Spec.headingMeas x b s) (1 / 4) true st.y ∧ r.lastStatic = ψ) ∧
    (x.inhibited = true → x.atRest = false → P 0 0 + P 1 1 + P 2 2 + P 3 3 ≤ x.quatMaxVar →
      r.y = fuseYaw b x.h R (Spec.headingMeas x b s) (Spec.headingVar x) false st.y ∧ r.lastStatic = ψ) ∧
    (x.inhibited = true → x.atRest = true →
      r.y = fuseYaw b x.h R st.lastStatic (Spec.headingVar x) false st.y ∧ r.lastStatic = st.lastStatic) := by
  intro s P R ψ r
  have hrot : Utils.IsRotation R := dcm_isRotation _ hq
  have hR0 : (if x.magHdg then sq x.noise else if x.evYaw then x.evVar else 1 / 100) = Spec.headingVar x := by
    unfold Spec.headingVar sq; simp only [pow_two]
  obtain ⟨hm0, hm1⟩ := mag_yaw_removed hrot b hb (magCorr x s)
  have hdecl : getMagDeclination x.decl s = if x.decl.alignedInFlight then Spec.declOf s else Spec.declRef x.decl :=
    magDeclination_spec x.decl s
  have hev := Utils.yaw_extractors_agree x.evQuat
  cases b
  · have hs : ¬ Utils.shouldUse321 R := fun hh => by cases hb.mpr hh
    have hmeas : (if x.magHdg then -atan2 ((Utils.updateEuler312YawInRotMat 0 R *ᵥ magCorr x s) 1)
        ((Utils.updateEuler312YawInRotMat 0 R *ᵥ magCorr x s) 0) + getMagDeclination x.decl s
        else if x.evYaw then Utils.getEuler312YawQ x.evQuat else Utils.getEuler312Yaw R) = Spec.headingMeas x false s := by
      simp only [Bool.false_eq_true, if_false] at hm0 hm1
      unfold Spec.headingMeas Spec.magHeading
      rw [hm0, hm1, hdecl, hev.2]
      rfl
    have hr : r = fuseHeading x st := rfl
    unfold fuseHeading at hr
    simp only [hR0] at hr
    rw [if_neg (show ¬ Utils.shouldUse321 (attQuat st.y.f.s).dcm from hs)] at hr
    simp only [show st.y.f.s = s from rfl, show (attQuat s).dcm = R from rfl, hmeas] at hr
    have hf : fuseYaw false = fuseYaw312 := by
      funext a b c d e f; simp [fuseYaw]
    simp only [hf]
    have hψ : Utils.getEuler312Yaw R = ψ := rfl
    simp only [hψ] at hr
    refine ⟨by rw [hr], ?_, ?_, ?_, ?_⟩
    · intro h1; rw [hr]; simp only [h1]; exact ⟨rfl, rfl⟩
    · intro h1 h2 h3
      rw [hr]; simp only [h1, h2]
      have h3' : st.y.f.P 0 0 + st.y.f.P 1 1 + st.y.f.P 2 2 + st.y.f.P 3 3 > x.quatMaxVar := h3
      simp only [Bool.not_false, if_true, if_pos h3']
      exact ⟨trivial, trivial⟩
    · intro h1 h2 h3
      rw [hr]; simp only [h1, h2]
      have h3' : ¬ st.y.f.P 0 0 + st.y.f.P 1 1 + st.y.f.P 2 2 + st.y.f.P 3 3 > x.quatMaxVar := not_lt.mpr h3
      simp only [Bool.not_false, if_true, if_neg h3']
      exact ⟨trivial, trivial⟩
    · intro h1 h2; rw [hr]; simp only [h1, h2]; exact ⟨rfl, rfl⟩
  · have hs : Utils.shouldUse321 R := hb.mp rfl
    have hmeas : (if x.magHdg then -atan2 ((Utils.updateEuler321YawInRotMat 0 R *ᵥ magCorr x s) 1)
        ((Utils.updateEuler321YawInRotMat 0 R *ᵥ magCorr x s) 0) + getMagDeclination x.decl s
        else if x.evYaw then Utils.getEuler321YawQ x.evQuat else Utils.getEuler321Yaw R) = Spec.headingMeas x true s := by
      simp only [if_true] at hm0 hm1
      unfold Spec.headingMeas Spec.magHeading
      rw [hm0, hm1, hdecl, hev.1]
      rfl
    have hr : r = fuseHeading x st := rfl
    unfold fuseHeading at hr
    simp only [hR0] at hr
    rw [if_pos (show Utils.shouldUse321 (attQuat st.y.f.s).dcm from hs)] at hr
    simp only [show st.y.f.s = s from rfl, show (attQuat s).dcm = R from rfl, hmeas] at hr
    have hf : fuseYaw true = fuseYaw321 := by
      funext a b c d e f; simp [fuseYaw]
    simp only [hf]
    have hψ : Utils.getEuler321Yaw R = ψ := rfl
    simp only [hψ] at hr
    refine ⟨by rw [hr], ?_, ?_, ?_, ?_⟩
    · intro h1; rw [hr]; simp only [h1]; exact ⟨rfl, rfl⟩
    · intro h1 h2 h3
      rw [hr]; simp only [h1, h2]
      have h3' : st.y.f.P 0 0 + st.y.f.P 1 1 + st.y.f.P 2 2 + st.y.f.P 3 3 > x.quatMaxVar := h3
      simp only [Bool.not_false, if_true, if_pos h3']
      exact ⟨trivial, trivial⟩
    · intro h1 h2 h3
      rw [hr]; simp only [h1, h2]
      have h3' : ¬ st.y.f.P 0 0 + st.y.f.P 1 1 + st.y.f.P 2 2 + st.y.f.P 3 3 > x.quatMaxVar := not_lt.mpr h3
      simp only [Bool.not_false, if_true, if_neg h3']
      exact ⟨trivial, trivial⟩
    · intro h1 h2; rw [hr]; simp only [h1, h2]; exact ⟨rfl, rfl⟩

/-- the hypotheses are met by a level attitude (3-1-2 sequence) -/
example : ∃ st : HeadSt, (attQuat st.y.f.s).normSq = 1 ∧ (false = true ↔ Utils.shouldUse321 (attQuat st.y.f.s).dcm) := by
  refine ⟨⟨⟨exFilt, false, false, 0, 0, 0, 0, 0⟩, 0, 0⟩, exState_unit, ?_⟩
  simp [Utils.shouldUse321, attQuat, exFilt, exState, Quat.dcm]

/-- **C85 (negative part).** While the vehicle moves and the quaternion variance is below its limit, inhibiting yaw fusion has no
effect at all: the untrusted heading measurement is fused exactly as if it were trusted. -/
theorem heading_inhibit_ineffective (x : HeadIn) (st : HeadSt) (hm : x.atRest = false)
    (hv : st.y.f.P 0 0 + st.y.f.P 1 1 + st.y.f.P 2 2 + st.y.f.P 3 3 ≤ x.quatMaxVar) :
    fuseHeading { x with inhibited := true } st = fuseHeading { x with inhibited := false } st := by
  have h3' : ¬ st.y.f.P 0 0 + st.y.f.P 1 1 + st.y.f.P 2 2 + st.y.f.P 3 3 > x.quatMaxVar := not_lt.mpr hv
  unfold fuseHeading
  simp only [hm, Bool.not_false, if_true, if_neg h3', Bool.false_eq_true, if_false]
  split <;> rfl

/-- **C87.** Euler yaw fusion of a valid covariance is always applied (when the innovation passes the test), and — unlike every
other observation — it also corrects the accelerometer bias states of axes whose bias learning is inhibited: each of the first 16
states `i ≥ 4` moves by exactly `(P Hᵀ)ᵢ / S` times the innovation. -/
theorem yaw_corrects_all_bias (x : FixIn ℝ) (h : Vec ℝ) (R v : ℝ) (hR : 0 < R) (f : Filt) (hP : Spec.PSD f.P) :
    let r := Spec.applyGain x (Spec.gain f.P h R (Spec.yawSel x.wind)) h f v
    r.2 = true ∧ ∀ i : Fin N, 4 ≤ i.val → i.val ≤ 15 → r.1.s i = f.s i - Spec.mulVec f.P h i / Spec.innovVar f.P h R * v := by
  intro r
  have hacc := optimal_gain_accepted { x with inhibit := fun _ => false } h R hR f.P hP (Spec.gain f.P h R (Spec.yawSel x.wind))
    (fun i => by unfold Spec.gain; split <;> simp) f.timeCheck f.badAccBias
  obtain ⟨m1, m2⟩ := measurementUpdate_spec { x with inhibit := fun _ => false } (Spec.gain f.P h R (Spec.yawSel x.wind)) h f.timeCheck
    f.badAccBias f.P
  simp only [Bool.false_eq_true, false_and, exists_false, if_false] at hacc m1 m2
  have hcond : ∀ i, Spec.gain f.P h R (Spec.yawSel x.wind) i * ∑ l, h l * f.P l i ≤ f.P i i := by
    by_contra hc
    rw [m2 hc] at hacc
    cases hacc
  have hr : r = _ := if_pos hcond
  rw [hr]
  refine ⟨rfl, fun i h4 h15 => ?_⟩
  show fuseState f.s _ v i = _
  unfold fuseState
  simp only
  rw [if_neg (by omega)]
  unfold Spec.gain
  rw [if_pos (show Spec.yawSel x.wind i from Or.inl h15)]

/-- **C87 (contrast).** A concrete case: accelerometer bias learning inhibited on all axes, yet a yaw innovation moves the X bias. -/
theorem yaw_moves_inhibited_bias : ∃ (x : HdgIn) (Rte : M3 ℝ) (yaw : ℝ) (st : YawSt), (∀ a, x.fx.inhibit a = true) ∧ Spec.PSD st.f.P ∧
    (attQuat st.f.s).normSq = 1 ∧ (fuseYaw312 x Rte yaw (1 / 100) false st).f.s 13 ≠ st.f.s 13 := by
  -- level, covariance I plus full correlation between q3 and the x accelerometer bias
  let P : Mat ℝ := fun i j => (if i = j then 1 else 0) + (if i = 3 ∨ i = 13 then 1 else 0) * (if j = 3 ∨ j = 13 then 1 else 0)
  have hP : Spec.PSD P := by
    refine ⟨fun i j => ?_, fun a => ?_⟩
    · show (if i = j then (1 : ℝ) else 0) + _ = (if j = i then 1 else 0) + _
      rw [mul_comm]
      congr 1
      simp only [eq_comm]
    · have : Spec.form P a a = (∑ i, a i * a i) + (∑ i, a i * (if i = 3 ∨ i = 13 then 1 else 0)) ^ 2 := by
        unfold Spec.form
        have e : ∀ i j : Fin N, a i * P i j * a j = (if i = j then a i * a j else 0) +
            (a i * (if i = 3 ∨ i = 13 then 1 else 0)) * (a j * (if j = 3 ∨ j = 13 then 1 else 0)) := by
          intro i j
          show a i * ((if i = j then (1 : ℝ) else 0) + _) * a j = _
          by_cases hij : i = j
          · simp only [if_pos hij]; ring
          · simp only [if_neg hij]; ring
        simp only [e, Finset.sum_add_distrib, Finset.sum_ite_eq, Finset.mem_univ, if_true]
        rw [pow_two, Finset.sum_mul_sum]
      rw [this]
      have h1 : 0 ≤ ∑ i, a i * a i := Finset.sum_nonneg fun i _ => mul_self_nonneg _
      positivity
  let f : Filt := { exFilt with M := { exFilt.M with P := P } }
  let st : YawSt := ⟨f, false, false, 0, 0, 0, 0, 0⟩
  let x : HdgIn := ⟨1000, false, 0, 0, ⟨fun _ => true, true, true, 1/100, 0, false⟩,
    ⟨⟨1, 0, 0, 0⟩, 0, 0, 0, 0, 0, 0, 0, false, false, 0, 0, 0, 0⟩⟩
  have hq : (attQuat st.f.s).normSq = 1 := exState_unit
  refine ⟨x, 1, 1, st, fun _ => rfl, hP, hq, ?_⟩
  have hrow : yawRow312 st.f.s = some (yawGrad false st.f.s) := by
    rw [yawRow312_eq, if_pos]
    left; show (1 : ℝ) / 1000000 < yN false exState ^ 2
    simp [yN, exState]; norm_num
  have hg : yawGrad false st.f.s = ![0, 0, 0, 2] := by
    show yawGrad false exState = _
    simp [yawGrad, yN, yE, exState]
  have hv : wrapPi (atan2 (-(1 : M3 ℝ) 0 1) ((1 : M3 ℝ) 1 1) - wrapPi 1) = -1 := by
    have hp := Real.pi_gt_three
    rw [wrapPi_of_mem (x := 1) ⟨by linarith, by linarith⟩]
    have : atan2 (-(1 : M3 ℝ) 0 1) ((1 : M3 ℝ) 1 1) = 0 := by
      rw [Matrix.one_apply_ne (by decide), Matrix.one_apply_eq, neg_zero]
      unfold atan2; exact Complex.arg_one
    rw [this, zero_sub, wrapPi_of_mem ⟨by linarith, by linarith⟩]
  have hmax : max (1 / 100 : ℝ) (1 / 10000) = 1 / 100 := by norm_num
  have hgate : mmax (1000 : ℝ) 1 = 1000 := by rw [mmax_eq]; norm_num
  have he : fuseYaw312 x 1 1 (1 / 100) false st = updateQuaternion x (-1) (1 / 100) 1000 ![0, 0, 0, 2] st := by
    unfold fuseYaw312
    rw [hrow, hg]
    simp only [Bool.false_eq_true, if_false, hv, hmax]
    rw [show x.gate = 1000 from rfl, hgate]
  rw [he]
  have hS := innovVar_ge hP (Spec.quatRow ![0, 0, 0, 2]) (1 / 100)
  obtain ⟨-, -, -, h4, -⟩ := (updateQuaternion_spec x (-1) (1 / 100) 1000 (by norm_num) (by norm_num) ![0, 0, 0, 2] st).2 hS
  have hlt : (-1 : ℝ) ^ 2 ≤ 1000 ^ 2 * Spec.innovVar st.f.P (Spec.quatRow ![0, 0, 0, 2]) (1 / 100) := by
    change 1 / 100 ≤ Spec.innovVar st.f.P (Spec.quatRow ![0, 0, 0, 2]) (1 / 100) at hS
    nlinarith
  rw [(h4 hlt).2.2.1]
  rw [(yaw_corrects_all_bias x.fx (Spec.quatRow ![0, 0, 0, 2]) (1 / 100) (-1) (by norm_num) st.f hP).2 13 (by decide) (by decide)]
  have hm : Spec.mulVec st.f.P (Spec.quatRow ![0, 0, 0, 2]) 13 = 2 := by
    unfold Spec.quatRow
    rw [mulVec_sparse]
    show (List.map (fun p : Fin N × ℝ => P 13 p.1 * p.2) _).sum = 2
    simp [P]
  rw [hm]
  have hS0 : 0 < Spec.innovVar st.f.P (Spec.quatRow ![0, 0, 0, 2]) (1 / 100) := lt_of_lt_of_le (by norm_num) hS
  have : 0 < 2 / Spec.innovVar st.f.P (Spec.quatRow ![0, 0, 0, 2]) (1 / 100) := by positivity
  linarith

/-- **C86.** The synthetic vertical magnetometer component is exact: if the horizontal sensor components are those of the given
earth field in the given attitude, the returned value is the vertical component. -/
theorem syntheticMagZ_exact (R : M3 ℝ) (h : Utils.IsRotation R) (e mag : V3 ℝ) (h0 : mag 0 = (Rᵀ *ᵥ e) 0) (h1 : mag 1 = (Rᵀ *ᵥ e) 1) :
    syntheticMagZ R mag e = (Rᵀ *ᵥ e) 2 := by
  have hz : e 0 * R 0 2 + e 1 * R 1 2 + e 2 * R 2 2 = (Rᵀ *ᵥ e) 2 := by
    simp [Matrix.mulVec, dotProduct, Fin.sum_univ_three]; ring
  have hlen : (Rᵀ *ᵥ e) 0 ^ 2 + (Rᵀ *ᵥ e) 1 ^ 2 + (Rᵀ *ᵥ e) 2 ^ 2 = e 0 ^ 2 + e 1 ^ 2 + e 2 ^ 2 := by
    have o := h.orth
    have r00 := congrFun (congrFun o 0) 0
    have r01 := congrFun (congrFun o 0) 1
    have r02 := congrFun (congrFun o 0) 2
    have r11 := congrFun (congrFun o 1) 1
    have r12 := congrFun (congrFun o 1) 2
    have r22 := congrFun (congrFun o 2) 2
    simp only [Matrix.mul_apply, Fin.sum_univ_three, Matrix.transpose_apply, Matrix.one_apply_eq] at r00 r01 r02 r11 r12 r22
    rw [Matrix.one_apply_ne (by decide)] at r01 r02 r12
    simp only [Matrix.mulVec, dotProduct, Fin.sum_univ_three, Matrix.transpose_apply]
    linear_combination e 0 ^ 2 * r00 + e 1 ^ 2 * r11 + e 2 ^ 2 * r22 + 2 * e 0 * e 1 * r01 + 2 * e 0 * e 2 * r02 + 2 * e 1 * e 2 * r12
  have hq : ∀ y : ℝ, sq y = y ^ 2 := fun y => (pow_two y).symm
  unfold syntheticMagZ
  simp only [hq, hz, mmax_eq, h0, h1]
  rw [Real.sq_sqrt (by nlinarith [sq_nonneg (e 0), sq_nonneg (e 1), sq_nonneg (e 2)])]
  have : e 0 * e 0 + e 1 * e 1 + e 2 * e 2 - (Rᵀ *ᵥ e) 0 ^ 2 - (Rᵀ *ᵥ e) 1 ^ 2 = (Rᵀ *ᵥ e) 2 ^ 2 := by linarith
  rw [this, max_eq_left (sq_nonneg _), Real.sqrt_sq_eq_abs]
  split
  · rename_i hn; rw [abs_of_neg hn]; ring
  · rename_i hn; rw [abs_of_nonneg (not_lt.mp hn)]

/-- **C86.** For any inputs: the size is the missing part of the field strength (0 if the horizontal components already exceed it)
and the sign is that of the predicted vertical component. -/
theorem syntheticMagZ_spec (R : M3 ℝ) (e mag : V3 ℝ) :
    syntheticMagZ R mag e ^ 2 = max (e 0 ^ 2 + e 1 ^ 2 + e 2 ^ 2 - mag 0 ^ 2 - mag 1 ^ 2) 0 ∧
    (e 0 * R 0 2 + e 1 * R 1 2 + e 2 * R 2 2 < 0 → syntheticMagZ R mag e ≤ 0) ∧
    (0 ≤ e 0 * R 0 2 + e 1 * R 1 2 + e 2 * R 2 2 → 0 ≤ syntheticMagZ R mag e) := by
  have hq : ∀ y : ℝ, sq y = y ^ 2 := fun y => (pow_two y).symm
  unfold syntheticMagZ
  simp only [hq, mmax_eq]
  rw [Real.sq_sqrt (by nlinarith [sq_nonneg (e 0), sq_nonneg (e 1), sq_nonneg (e 2)])]
  have e1 : e 0 * e 0 + e 1 * e 1 + e 2 * e 2 - mag 0 ^ 2 - mag 1 ^ 2 = e 0 ^ 2 + e 1 ^ 2 + e 2 ^ 2 - mag 0 ^ 2 - mag 1 ^ 2 := by ring
  rw [e1]
  have hs := Real.sq_sqrt (le_max_right (e 0 ^ 2 + e 1 ^ 2 + e 2 ^ 2 - mag 0 ^ 2 - mag 1 ^ 2) 0)
  have hn := Real.sqrt_nonneg (max (e 0 ^ 2 + e 1 ^ 2 + e 2 ^ 2 - mag 0 ^ 2 - mag 1 ^ 2) 0)
  refine ⟨?_, ?_, ?_⟩
  · split
    · rw [neg_sq]; exact hs
    · exact hs
  · intro h; rw [if_pos h]; linarith
  · intro h; rw [if_neg (not_lt.mpr h)]; exact hn

example : Utils.IsRotation (1 : M3 ℝ) := ⟨by simp, by simp, by simp⟩

end Ecl.Fusion
