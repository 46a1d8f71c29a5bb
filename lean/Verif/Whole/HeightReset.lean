import Verif.Whole.GpsReset
import Verif.Control.HeightProps

/-!
# What a height reset leaves behind (C171)

EKF/control.cpp:164, 173, 773-892, 958-1171, EKF/ekf_helper.cpp:258-333.  The reset writes the newest sample, which is ahead of the fusion horizon, into the state at the
fusion horizon; the same step then fuses the sample that belongs to the horizon.
-/

namespace Ecl.Whole

open Ecl.Cov Ecl.Fusion Ecl.Ekf Ecl.Control
open scoped Matrix

noncomputable section

/-! ## Model -/

/-- one step with a height reset: `controlHeightSensorTimeouts` (EKF/control.cpp:164, 773-892) and `controlHeightFusion` (EKF/control.cpp:173, 958-1171), on the height control
members and on the filter.  `none` if nothing is fused.  The fusions of other data between the two (EKF/control.cpp:167-172) are not part of this step.  The filter is reset with
the members as they are after the reset, which reads the same values (`Whole.resetHeight_again`). -/
def heightResetStep (x : HIn) (v : VPIn) (h : HSt) (st : VPSt) : HSt × Option (HObs × VPOut) :=
  let t := heightTimeouts x h
  let st := if t.2 then { st with f := Whole.resetHeight x t.1 st.f } else st
  let c := controlHeight x t.1
  match c.2 with
  | some o => (c.1, some (o, fuseVerticalPosition v o.innov o.gate o.var st))
  | none => (c.1, none)

/-! ## Proof -/

theorem resetHeight_again (x : HIn) (h : HSt) (f : Filt) (one : Spec.sources h.fl ≤ 1) : Whole.resetHeight x (Control.resetHeight x h) f = Whole.resetHeight x h f := by
  obtain ⟨h1, -, h3, h4, -, -⟩ := resetHeight_frame x h
  have hb : h.fl.baro = true → (Control.resetHeight x h).baroOffset = h.baroOffset := by
    intro hb
    have hr : h.fl.rng = false := by
      rcases Bool.eq_false_or_eq_true h.fl.rng with r | r
      · exfalso
        unfold Spec.sources at one
        rw [hb, r] at one
        simp only [Bool.toNat_true] at one
        omega
      · exact r
    unfold Control.resetHeight
    simp only [hr, hb, Bool.false_eq_true, if_false, if_true]
    split_ifs <;> rfl
  unfold Whole.resetHeight
  rw [h1, h3, h4]
  rcases Bool.eq_false_or_eq_true h.fl.baro with b | b
  · rw [hb b]
  · simp only [b, Bool.false_eq_true, if_false]

/-- the second half of the reset of the filter: the vertical velocity -/
theorem reset_pos_filt (f g : Filt) (p v w : ℝ) (hv : 0 ≤ v) (hw : 0 ≤ w) (u : ℝ) (hd : ∀ i, 0 ≤ f.P i i)
    (hg : g = { f with s := Function.update (Function.update f.s 9 p) 6 u, M := { f.M with P := uncorrSet 6 1 (fun _ => w) (uncorrSet 9 1 (fun _ => v) f.M.P) } }) :
    g.s 9 = p ∧ g.P 9 9 = v ∧ Lone g.P 9 ∧ ∀ i, 0 ≤ g.P i i := by
  have b9 : inBlk 9 1 (9 : Fin N) := by unfold inBlk; decide
  have n9 : ¬ inBlk 6 1 (9 : Fin N) := by unfold inBlk; decide
  have hP : g.P = uncorrSet 6 1 (fun _ => w) (uncorrSet 9 1 (fun _ => v) f.P) := by rw [hg]
  obtain ⟨a, b⟩ := uncorrSet_other 6 1 (fun _ => w) _ 9 (uncorrSet_lone 9 1 (fun _ => v) f.P 9 b9) n9
  refine ⟨?_, ?_, ?_, ?_⟩
  · rw [hg]
    show Function.update (Function.update f.s 9 p) 6 u 9 = p
    rw [Function.update_of_ne (by decide), Function.update_self]
  · rw [hP, a, uncorrSet_in 9 1 _ _ 9 b9]
  · rw [hP]
    exact b
  · intro i
    rw [hP]
    exact uncorrSet_nonneg _ _ _ _ (fun _ _ => hw) (uncorrSet_nonneg _ _ _ _ (fun _ _ => hv) hd) i

/-- position and variance of a reset height, the three sources that set both -/
theorem reset_filt (x : HIn) (h : HSt) (f : Filt) (p v : ℝ) (hv : 0 ≤ v) (hd : ∀ i, 0 ≤ f.P i i)
    (hs : (Spec.only h.fl .rng ∧ p = h.offset - x.dist ∧ v = x.rangeNoise ^ 2) ∨
      (Spec.only h.fl .baro ∧ h.baroFaulty = false ∧ p = h.baroOffset - x.baroHgtNew ∧ v = x.baroNoise ^ 2) ∨
      (Spec.only h.fl .gps ∧ x.gpsIntermittent = false ∧ p = h.offset - (x.gpsHgtNew - x.gpsAltRef) ∧ v = x.gpsVaccNew ^ 2)) :
    (Whole.resetHeight x h f).s 9 = p ∧ (Whole.resetHeight x h f).P 9 9 = v ∧ Lone (Whole.resetHeight x h f).P 9 ∧ ∀ i, 0 ≤ (Whole.resetHeight x h f).P i i := by
  have sq2 : ∀ y : ℝ, sq y = y ^ 2 := fun y => (pow_two y).symm
  have hw : 0 ≤ sq ((3 / 2) * x.gpsSaccNew) := mul_self_nonneg _
  have go : ∃ (u w : ℝ), 0 ≤ w ∧ Whole.resetHeight x h f =
      { f with s := Function.update (Function.update f.s 9 p) 6 u, M := { f.M with P := uncorrSet 6 1 (fun _ => w) (uncorrSet 9 1 (fun _ => v) f.M.P) } } := by
    rcases hs with ⟨h1, h2, h3⟩ | ⟨h1, h4, h2, h3⟩ | ⟨h1, h4, h2, h3⟩
    · have e : h.fl.rng = true := by rw [show h.fl = _ from h1]
      unfold Whole.resetHeight
      simp only [e, if_true, h2, h3, sq2]
      split_ifs
      · exact ⟨x.gpsVelDNew, _, by positivity, rfl⟩
      · exact ⟨0, 10, by norm_num, rfl⟩
    · have e : h.fl.rng = false ∧ h.fl.baro = true := by rw [show h.fl = _ from h1]; exact ⟨rfl, rfl⟩
      have hp : -x.baroHgtNew + h.baroOffset = p := by rw [h2]; ring
      unfold Whole.resetHeight
      simp only [e.1, e.2, h4, Bool.not_false, Bool.false_eq_true, if_false, if_true, hp, h3, sq2]
      split_ifs
      · exact ⟨x.gpsVelDNew, _, by positivity, rfl⟩
      · exact ⟨0, 10, by norm_num, rfl⟩
    · have e : h.fl.rng = false ∧ h.fl.baro = false ∧ h.fl.gps = true := by rw [show h.fl = _ from h1]; exact ⟨rfl, rfl, rfl⟩
      have hp : h.offset - x.gpsHgtNew + x.gpsAltRef = p := by rw [h2]; ring
      unfold Whole.resetHeight
      simp only [e.1, e.2.1, e.2.2, h4, Bool.not_false, Bool.false_eq_true, if_false, if_true, hp, h3, sq2]
      split_ifs
      · exact ⟨x.gpsVelDNew, _, by positivity, rfl⟩
      · exact ⟨0, 10, by norm_num, rfl⟩
  obtain ⟨u, w, hw, hg⟩ := go
  exact reset_pos_filt f _ p v w hv hw u hd hg

/-- the innovation that is fused: limited only if the vertical acceleration is bad -/
def Spec.limited (bad : Bool) (a G S : ℝ) : ℝ := if bad then max (-(G * Real.sqrt S)) (min a (G * Real.sqrt S)) else a

theorem vpos_lone (x : VPIn) (i g r : ℝ) (st : VPSt) (hg : 0 < g) (h0 : 0 < r) (l : Lone st.f.P 9) (hd : ∀ i, 0 ≤ st.f.P i i) :
    let o := fuseVerticalPosition x i g r st
    let S := st.f.P 9 9 + r
    let H := i ^ 2 ≤ g ^ 2 * S ∨ x.badVertAccel = true
    (H → o.ret = true ∧ o.st.f.s 9 = Spec.afterReset (st.f.s 9) (Spec.limited x.badVertAccel i g S) (st.f.P 9 9) r) ∧
    (¬ H → o.ret = false ∧ o.st.f = st.f) := by
  intro o S H
  have hS : 0 < S := by have := hd 9; show 0 < st.f.P 9 9 + r; linarith
  obtain ⟨A, -, -, B, C⟩ := vpos_gate x st i g r hg hS
  constructor
  · intro c
    have hr := A.mpr c
    refine ⟨hr, ?_⟩
    have hC := C hr
    set st1 : VPSt := { st with vposRatio := i / Real.sqrt S, tVposTry := x.fx.now } with hst1
    set a : ℝ := Spec.limited x.badVertAccel i g S with ha
    have e9 : (obsState 5 : Fin N) = 9 := rfl
    have F := (fuse_lone x a r h0 5 st1 (by rw [e9]; exact l) hd).1
    rw [fuseVelPosHeight_spec, e9] at F
    have : o.st.f.s 9 = (Spec.directFusion x.fx 9 S a st.f).1.s 9 := by
      have h2 := congrArg (fun t : VPSt => t.f.s 9) hC
      exact h2
    rw [this]
    exact F
  · intro c
    have hr : o.ret = false := by
      rcases Bool.eq_false_or_eq_true o.ret with h | h
      · exact absurd (A.mp h) c
      · exact h
    refine ⟨hr, ?_⟩
    rw [B hr]

/-- source selection with the source kept: nothing the observation depends on changes -/
structure SelKept (src : HSrc) (a b : HSt) : Prop where
  posD : b.posD = a.posD
  tHgt : b.tHgt = a.tHgt
  baroOffset : b.baroOffset = a.baroOffset
  offset : src ≠ .baro → b.offset = a.offset
  gnd : a.gndEffect = false → b.gndEffect = false

theorem SelKept.refl (src : HSrc) (a : HSt) : SelKept src a a := ⟨rfl, rfl, rfl, fun _ => rfl, fun h => h⟩

theorem startGps_only (x : HIn) (s : HSt) (src : HSrc) (h : Spec.only (startGps x s).fl src) : src = .gps := by
  rw [startGps_fl] at h
  cases src <;> first | rfl | (unfold Spec.only at h; exact absurd h (by decide))

theorem startBaro_only (x : HIn) (s : HSt) (src : HSrc) (h : Spec.only (startBaro x s).fl src) : src = .baro := by
  rw [startBaro_fl] at h
  cases src <;> first | rfl | (unfold Spec.only at h; exact absurd h (by decide))

theorem startBaro_kept (x : HIn) (s : HSt) : SelKept .baro s (startBaro x s) := by
  refine ⟨rfl, rfl, rfl, fun h => absurd rfl h, fun h => ?_⟩
  unfold startBaro
  simp only [h, Bool.false_eq_true, if_false]

theorem setRange_only {f : HFlags} {src : HSrc} (h : Spec.only f.setRange src) : src = .rng := by
  cases src <;> first | rfl | (unfold Spec.only HFlags.setRange at h; exact absurd h (by decide))

set_option maxHeartbeats 1000000 in
theorem select_kept (x : HIn) (s : HSt) (src : HSrc) (he : src ≠ .ev) (hx : x.prev = s.fl) (hs : Spec.only s.fl src) (hk : Spec.only (selectHeight x s).1.fl src) :
    SelKept src s (selectHeight x s).1 := by
  have rngp : src = .rng → x.prev.rng = true := by rintro rfl; rw [hx, show s.fl = _ from hs]
  have gpsp : src = .gps → x.prev.gps = true := by rintro rfl; rw [hx, show s.fl = _ from hs]
  have nbaro : src ≠ .baro → s.fl.baro = false := by
    intro h; cases src <;> first | exact absurd rfl h | (rw [show s.fl = _ from hs])
  have nrng : src ≠ .rng → s.fl.rng = false := by
    intro h; cases src <;> first | exact absurd rfl h | (rw [show s.fl = _ from hs])
  have nev : s.fl.ev = false := by
    cases src <;> first | exact absurd rfl he | (rw [show s.fl = _ from hs])
  have hsg : ∀ t : HSt, t = startGps x s → Spec.only t.fl src → SelKept src s t := by
    rintro t rfl h
    have hg := startGps_only x s src h
    have hp := gpsp hg
    have : startGps x s = { s with fl := s.fl.setGps } := by
      unfold startGps
      rw [hp]
      simp only [HFlags.setGps, ne_eq, not_true, if_false]
    rw [this]
    exact ⟨rfl, rfl, rfl, fun _ => rfl, fun h => h⟩
  have hsb : ∀ t : HSt, t = startBaro x s → Spec.only t.fl src → SelKept src s t := by
    rintro t rfl h
    have := startBaro_only x s src h
    subst this
    exact startBaro_kept x s
  have hsr : ∀ (o : ℝ), (x.prev.rng = true → o = s.offset) → Spec.only (s.fl.setRange) src → SelKept src s { s with fl := s.fl.setRange, offset := o } := by
    intro o ho h
    have := setRange_only h
    exact ⟨rfl, rfl, rfl, fun _ => ho (rngp this), fun h => h⟩
  by_cases v3 : x.vdist = 3
  · obtain ⟨a, -, c⟩ := select_ev_primary x s v3
    rcases Bool.eq_false_or_eq_true (isRecent x.now x.tLastEv 400000) with r | r
    · exfalso
      rw [a ⟨nev, r⟩] at hk
      dsimp only at hk
      rw [resetHeight_fl] at hk
      cases src <;> first | exact he rfl | (unfold Spec.only at hk; dsimp only at hk; exact absurd hk (by decide))
    · rw [(c ⟨nev, r⟩).1]
      exact SelKept.refl _ _
  unfold selectHeight at hk ⊢
  dsimp only at hk ⊢
  generalize (decide (x.rangeAid = 1) && x.rngAidSuitable) = aid at hk ⊢
  split_ifs at hk ⊢ <;> dsimp only at hk ⊢ <;>
    first
      | exact SelKept.refl _ _
      | exact hsg _ rfl hk
      | exact hsb _ rfl hk
      | exact hsr _ (fun h => rfl) hk
      | exact ⟨rfl, rfl, rfl, fun _ => rfl, fun h => h⟩
      | (exfalso; rw [hx] at *; simp_all; done)
      | (refine hsr _ (fun h => absurd h ?_) hk; simp_all [HFlags.setRange]; done)
/-- a reset that keeps the source -/
theorem timeouts_kept (x : HIn) (h : HSt) (src : HSrc) (hs : Spec.only h.fl src) (hr : (heightTimeouts x h).2 = true) (hk : Spec.only (heightTimeouts x h).1.fl src) :
    (heightTimeouts x h).1 = { Control.resetHeight x { h with warn := true } with tHgt := x.now } ∧ (src = .baro → h.baroFaulty = false) ∧
      (src = .gps → x.gpsIntermittent = false) := by
  have hg : ∀ (t : HSt) (n : UInt64), Spec.only ({ Control.resetHeight x { startGps x t with warn := true } with tHgt := n } : HSt).fl src → src = .gps := by
    intro t n h
    dsimp only at h
    rw [resetHeight_fl] at h
    exact startGps_only x t src h
  have hb : ∀ (t : HSt) (n : UInt64), Spec.only ({ Control.resetHeight x { startBaro x t with warn := true } with tHgt := n } : HSt).fl src → src = .baro := by
    intro t n h
    dsimp only at h
    rw [resetHeight_fl] at h
    exact startBaro_only x t src h
  unfold heightTimeouts at hr hk ⊢
  dsimp only at hr hk ⊢
  cases src
  · have e : h.fl.baro = true := by rw [show h.fl = _ from hs]
    simp only [e, if_true] at hr hk ⊢
    split_ifs at hr hk ⊢ <;> dsimp only at hr hk ⊢ <;>
      first
        | (have := hg _ _ hk; exact absurd this (by decide))
        | exact absurd hr (by decide)
        | (refine ⟨rfl, fun _ => ?_, fun h => absurd h (by decide)⟩; simp_all; done)
  · have e : h.fl.baro = false ∧ h.fl.gps = true := by rw [show h.fl = _ from hs]; exact ⟨rfl, rfl⟩
    simp only [e.1, e.2, if_true, Bool.false_eq_true, if_false] at hr hk ⊢
    split_ifs at hr hk ⊢ <;> dsimp only at hr hk ⊢ <;>
      first
        | (have := hb _ _ hk; exact absurd this (by decide))
        | exact absurd hr (by decide)
        | (refine ⟨rfl, fun h => absurd h (by decide), fun _ => ?_⟩; simp_all; done)
  · have e : h.fl.baro = false ∧ h.fl.gps = false ∧ h.fl.rng = true := by rw [show h.fl = _ from hs]; exact ⟨rfl, rfl, rfl⟩
    simp only [e.1, e.2.1, e.2.2, if_true, Bool.false_eq_true, if_false] at hr hk ⊢
    split_ifs at hr hk ⊢ <;> dsimp only at hr hk ⊢ <;>
      first
        | (have := hb _ _ hk; exact absurd this (by decide))
        | exact absurd hr (by decide)
        | exact ⟨rfl, fun h => absurd h (by decide), fun h => absurd h (by decide)⟩
  · have e : h.fl.baro = false ∧ h.fl.gps = false ∧ h.fl.rng = false ∧ h.fl.ev = true := by rw [show h.fl = _ from hs]; exact ⟨rfl, rfl, rfl, rfl⟩
    simp only [e.1, e.2.1, e.2.2.1, e.2.2.2, if_true, Bool.false_eq_true, if_false] at hr hk ⊢
    split_ifs at hr hk ⊢ <;> dsimp only at hr hk ⊢ <;>
      first
        | (have := hb _ _ hk; exact absurd this (by decide))
        | exact absurd hr (by decide)
        | exact ⟨rfl, fun h => absurd h (by decide), fun h => absurd h (by decide)⟩

/-! ## Specification -/

/-- vertical position according to the newest sample of a source, which a reset uses (the range finder has one sample only) -/
def Spec.heightNow (x : HIn) (h : HSt) : HSrc → ℝ
  | .baro => h.baroOffset - x.baroHgtNew
  | .gps => h.offset - (x.gpsHgtNew - x.gpsAltRef)
  | .rng => h.offset - x.dist
  | .ev => if x.tDelayedEv ≤ x.tNewestEv then x.evNewest else x.evDelayed

/-- vertical position according to the sample at the fusion horizon, which is fused -/
def Spec.heightThen (x : HIn) (h : HSt) : HSrc → ℝ
  | .baro => h.baroOffset - x.baroHgt
  | .gps => h.offset - (x.gpsHgt - x.gpsAltRef)
  | .rng => h.offset - max x.dist x.clearance
  | .ev => x.evDelayed

/-- variance set by a reset -/
def Spec.heightResetVar (x : HIn) : HSrc → ℝ
  | .baro => x.baroNoise ^ 2
  | .gps => x.gpsVaccNew ^ 2
  | .rng => x.rangeNoise ^ 2
  | .ev => 0

/-- variance of the observation -/
def Spec.heightObsVar (x : HIn) : HSrc → ℝ
  | .baro => max x.baroNoise (1 / 100) ^ 2
  | .gps => gpsHeightVariance x.gpsPosNoise x.posNoaidNoise x.gpsVacc
  | .rng => max (x.rangeNoise ^ 2 + (x.rangeNoiseScaler * x.dist) ^ 2) (1 / 100)
  | .ev => max x.evVar (1 / 10000)

/-- gate of the observation -/
def Spec.heightGate (x : HIn) : HSrc → ℝ
  | .baro => max x.baroGate 1
  | .gps => max x.baroGate 1
  | .rng => max x.rangeGate 1
  | .ev => max x.evGate 1

/-! ## Theorems -/

/-- **C171 (exactly).** A height reset to barometer, GPS or range finder without change of source, and the same source fused in the same step (no ground effect
compensation).  With `a` the difference of the newest sample and the sample at the fusion horizon: the vertical position is set to the newest sample; the sample at
the horizon is fused iff `a` is within the gate for the new variances (or the vertical acceleration is bad: then `a` is limited to the gate), and moves the estimate from the newest
towards the delayed sample by the share `reset variance / (reset variance + observation variance)`; otherwise the state at the horizon keeps the newest sample. -/
theorem height_reset_then_fused (x : HIn) (v : VPIn) (h : HSt) (st : VPSt) (src : HSrc) (he : src ≠ .ev) (hx : x.prev = h.fl) (hs : Spec.only h.fl src)
    (hr : (heightTimeouts x h).2 = true) (hk : Spec.only (heightTimeouts x h).1.fl src) (hn : x.now.toNat + 400000 < 2 ^ 64)
    (hg : src = .baro → h.gndEffect = false) (hd : ∀ i, 0 ≤ st.f.P i i)
    (c : HSt) (o : HObs) (out : VPOut) (hf : heightResetStep x v h st = (c, some (o, out))) (ho : o.src = src) :
    let z := Spec.heightNow x h src
    let a := z - Spec.heightThen x h src
    let P := Spec.heightResetVar x src
    let r := Spec.heightObsVar x src
    let G := Spec.heightGate x src
    let H := a ^ 2 ≤ G ^ 2 * (P + r) ∨ v.badVertAccel = true
    c.posD = z ∧ (H → out.ret = true ∧ out.st.f.s 9 = Spec.afterReset z (Spec.limited v.badVertAccel a G (P + r)) P r) ∧
      (¬ H → out.ret = false ∧ out.st.f.s 9 = z) := by
  intro z a P r G H
  obtain ⟨t1, t2, t3⟩ := timeouts_kept x h src hs hr hk
  set h1 := (heightTimeouts x h).1 with hh1
  have one : Spec.sources h.fl ≤ 1 := by
    rw [only_sources hs]
  have k1 : h1.fl = h.fl ∧ h1.offset = h.offset ∧ h1.tHgt = x.now ∧ h1.gndEffect = h.gndEffect := by
    obtain ⟨f1, -, -, f4, f5, -⟩ := resetHeight_frame x { h with warn := true }
    rw [t1]
    exact ⟨f1, f4, rfl, f5⟩
  obtain ⟨V1, V2, V3, -, -, -, -⟩ := reset_height_values x { h with warn := true }
  have k2 : h1.posD = z ∧ (src = .baro → h1.baroOffset = h.baroOffset) := by
    rw [t1]
    cases src
    · exact ⟨(V2 hs (t2 rfl)).1, fun _ => (V2 hs (t2 rfl)).2.2⟩
    · exact ⟨(V3 hs (t3 rfl)).1, fun h => absurd h (by decide)⟩
    · exact ⟨(V1 hs).1, fun h => absurd h (by decide)⟩
    · exact absurd rfl he
  have hP : 0 ≤ P := by
    show 0 ≤ Spec.heightResetVar x src
    cases src <;> unfold Spec.heightResetVar <;> dsimp only <;> positivity
  -- the filter
  have hw : Whole.resetHeight x h1 st.f = Whole.resetHeight x h st.f := by
    have : Whole.resetHeight x h1 st.f = Whole.resetHeight x (Control.resetHeight x { h with warn := true }) st.f := by rw [t1]; rfl
    rw [this, resetHeight_again x { h with warn := true } st.f one]
    rfl
  have F : (Whole.resetHeight x h1 st.f).s 9 = z ∧ (Whole.resetHeight x h1 st.f).P 9 9 = P ∧ Lone (Whole.resetHeight x h1 st.f).P 9 ∧
      ∀ i, 0 ≤ (Whole.resetHeight x h1 st.f).P i i := by
    rw [hw]
    refine reset_filt x h st.f z P hP hd ?_
    cases src
    · exact Or.inr (Or.inl ⟨hs, t2 rfl, rfl, rfl⟩)
    · exact Or.inr (Or.inr ⟨hs, t3 rfl, rfl, rfl⟩)
    · exact Or.inl ⟨hs, rfl, rfl⟩
    · exact absurd rfl he
  -- what is fused
  have hc : (controlHeight x h1).1 = c ∧ (controlHeight x h1).2 = some o ∧
      out = fuseVerticalPosition v o.innov o.gate o.var { st with f := Whole.resetHeight x h1 st.f } := by
    unfold heightResetStep at hf
    dsimp only at hf
    rw [if_pos hr, ← hh1] at hf
    rcases e : (controlHeight x h1).2 with _ | o'
    · rw [e] at hf
      exact absurd (congrArg Prod.snd hf) (by simp)
    · rw [e] at hf
      have e1 := congrArg Prod.fst hf
      have e2 := congrArg Prod.snd hf
      dsimp only at e1 e2
      have e3 := Option.some.inj e2
      have e4 := congrArg Prod.fst e3
      have e5 := congrArg Prod.snd e3
      dsimp only at e4 e5
      rw [e4] at e5
      exact ⟨e1, by rw [e4], e5.symm⟩
  obtain ⟨hc1, hc2, hc3⟩ := hc
  obtain ⟨D1, D2, D3⟩ := controlHeight_fused x h1
  have hob : ∃ d, heightObs x d c = some o ∧ (isTimedOut x.now c.tHgt 400000 = false → d = x.dist) := by
    by_cases y : (c.fl.rng = true ∧ isTimedOut x.now c.tHgt 400000 = true ∧ x.rngDataHealthy = false ∧ x.rngRegular = true ∧ x.inAir = false)
    · exact ⟨_, by rw [← hc1] at y ⊢; rw [← D2 y, hc2], fun h => absurd y.2.1 (by rw [h]; decide)⟩
    · refine ⟨x.dist, ?_, fun _ => rfl⟩
      have := D3 (by rw [← hc1] at y; exact y)
      rw [hc2] at this
      split at this
      · rw [← hc1, ← this]
      · exact absurd this (by simp)
  obtain ⟨d, hob, hd1⟩ := hob
  have one' : Spec.sources c.fl ≤ 1 := by
    rw [← hc1, controlHeight_fl]
    rcases selectHeight_one x h1 with e | ⟨s', e⟩
    · rw [e, only_sources hk]
    · rw [only_sources e]
  obtain ⟨-, O1, O2, O3, O4, -⟩ := height_observation x d c one'
  have hcs : Spec.only c.fl src := by rw [← ho]; exact (O1 o hob).1
  have hk' : Spec.only (selectHeight x h1).1.fl src := by rw [← hc1, controlHeight_fl] at hcs; exact hcs
  have K := select_kept x h1 src he (by rw [hx, k1.1]) hk hk'
  have hcu : c = updateBaroOffset x (selectHeight x h1).1 := by rw [← hc1]; exact D1
  have u1 : ∀ t, (updateBaroOffset x t).tHgt = t.tHgt ∧ (updateBaroOffset x t).posD = t.posD ∧ (updateBaroOffset x t).offset = t.offset ∧
      (updateBaroOffset x t).gndEffect = t.gndEffect := by
    intro t; unfold updateBaroOffset; split <;> exact ⟨rfl, rfl, rfl, rfl⟩
  have c1 : c.tHgt = x.now := by rw [hcu, (u1 _).1, K.tHgt, k1.2.2.1]
  have c2 : c.posD = z := by rw [hcu, (u1 _).2.1, K.posD, k2.1]
  have hdd : d = x.dist := by
    refine hd1 ?_
    rw [c1, ← Bool.not_eq_true, isTimedOut_iff, UInt64.lt_iff_toNat_lt, UInt64.toNat_add]
    have e4 : (400000 : UInt64).toNat = 400000 := by decide
    rw [e4, Nat.mod_eq_of_lt hn]
    omega
  subst hdd
  have hov : o.innov = a ∧ o.gate = G ∧ o.var = r := by
    cases src
    · have e : c.fl.baro = true := by rw [show c.fl = _ from hcs]
      obtain ⟨o', w0, w1, w2, w3⟩ := O2 e
      have := Option.some.inj (w0.symm.trans hob)
      subst this
      have hb : c.baroOffset = h.baroOffset := by
        have e' : (selectHeight x h1).1.fl.baro = true := by rw [show (selectHeight x h1).1.fl = _ from hk']
        rw [hcu, (baro_offset_kept x _).1 (Or.inl e'), K.baroOffset, k2.2 rfl]
      have hgn : c.gndEffect = false := by
        rw [hcu, (u1 _).2.2.2]
        exact K.gnd (by rw [k1.2.2.2]; exact hg rfl)
      refine ⟨?_, w1, w2⟩
      rw [w3 hgn, c2, hb]
      show z + x.baroHgt - h.baroOffset = z - (h.baroOffset - x.baroHgt)
      ring
    · have e : c.fl.gps = true := by rw [show c.fl = _ from hcs]
      obtain ⟨o', w0, w1, w2, w3⟩ := O3 e
      have := Option.some.inj (w0.symm.trans hob)
      subst this
      refine ⟨?_, w1, w2⟩
      rw [w3, c2, hcu, (u1 _).2.2.1, K.offset (by decide), k1.2.1]
      rfl
    · have e : c.fl.rng = true := by rw [show c.fl = _ from hcs]
      obtain ⟨o', w0, w1, w2, w3⟩ := O4 e
      have := Option.some.inj (w0.symm.trans hob)
      subst this
      refine ⟨?_, w1, w2⟩
      rw [w3, c2, hcu, (u1 _).2.2.1, K.offset (by decide), k1.2.1]
      rfl
    · exact absurd rfl he
  have hG : 0 < G := by
    rw [← hov.2.1]
    exact lt_of_lt_of_le one_pos (O1 o hob).2.1
  have hr0 : 0 < r := by
    rw [← hov.2.2]
    exact lt_of_lt_of_le (by norm_num) (O1 o hob).2.2
  obtain ⟨F1, F2, F3, F4⟩ := F
  have L := vpos_lone v a G r { st with f := Whole.resetHeight x h1 st.f } hG hr0 F3 F4
  dsimp only at L
  rw [F1, F2] at L
  rw [hov.1, hov.2.1, hov.2.2] at hc3
  rw [← hc3] at L
  refine ⟨c2, L.1, fun n => ⟨(L.2 n).1, ?_⟩⟩
  rw [(L.2 n).2]
  exact F1
theorem afterReset_half (z y a l P r : ℝ) (hP : 0 ≤ P) (hr : 0 < r) (hPr : P ≤ r) (hl : |l| ≤ |a| ∧ 0 ≤ a * l) (hy : y = Spec.afterReset z l P r ∨ y = z) :
    |a| / 2 ≤ |y - (z - a)| := by
  have hk : 0 < P + r := by linarith
  have hk1 : P / (P + r) ≤ 1 / 2 := by rw [div_le_div_iff₀ hk (by norm_num)]; linarith
  have hk0 : 0 ≤ P / (P + r) := by positivity
  rcases hy with rfl | rfl
  · unfold Spec.afterReset
    rw [show z - P / (P + r) * l - (z - a) = a - P / (P + r) * l by ring]
    rcases le_total 0 a with ha | ha
    · rw [abs_of_nonneg ha] at hl ⊢
      have := (abs_le.mp hl.1).2
      refine le_trans ?_ (le_abs_self _)
      rcases le_total 0 l with h | h <;> nlinarith
    · rw [abs_of_nonpos ha] at hl ⊢
      have := (abs_le.mp hl.1).1
      refine le_trans ?_ (neg_le_abs _)
      rcases le_total 0 l with h | h <;> nlinarith
  · rw [show y - (y - a) = a by ring]
    have := abs_nonneg a
    linarith

theorem limited_toward (bad : Bool) (a G S : ℝ) (hG : 0 ≤ G) : |Spec.limited bad a G S| ≤ |a| ∧ 0 ≤ a * Spec.limited bad a G S := by
  have hL : 0 ≤ G * Real.sqrt S := mul_nonneg hG (Real.sqrt_nonneg _)
  unfold Spec.limited
  split
  · generalize G * Real.sqrt S = L at hL
    rcases le_total 0 a with ha | ha
    · have h1 : 0 ≤ max (-L) (min a L) := le_trans (le_min ha hL) (le_max_right _ _)
      rw [abs_of_nonneg h1, abs_of_nonneg ha]
      exact ⟨max_le (by linarith) (min_le_left _ _), mul_nonneg ha h1⟩
    · have h1 : max (-L) (min a L) ≤ 0 := max_le (by linarith) (le_trans (min_le_left _ _) ha)
      rw [abs_of_nonpos h1, abs_of_nonpos ha]
      refine ⟨?_, mul_nonneg_of_nonpos_of_nonpos ha h1⟩
      have : min a L = a := min_eq_left (by linarith)
      have := le_max_right (-L) (min a L)
      linarith
  · exact ⟨le_rfl, by nlinarith [mul_self_nonneg a]⟩

/-- **C171 (at least half).** In the same situation, if the variance set by the reset is not above the one of the observation — always for the range finder, for the barometer
if its noise parameter is not negative, for the GPS unless its accuracy is above the limit of the observation variance or better in the delayed sample —
then the error of the vertical position at the fusion horizon, against the sample of that time, is at least half the difference of the two samples. -/
theorem height_reset_error (x : HIn) (v : VPIn) (h : HSt) (st : VPSt) (src : HSrc) (he : src ≠ .ev) (hx : x.prev = h.fl) (hs : Spec.only h.fl src)
    (hr : (heightTimeouts x h).2 = true) (hk : Spec.only (heightTimeouts x h).1.fl src) (hn : x.now.toNat + 400000 < 2 ^ 64)
    (hg : src = .baro → h.gndEffect = false) (hd : ∀ i, 0 ≤ st.f.P i i)
    (c : HSt) (o : HObs) (out : VPOut) (hf : heightResetStep x v h st = (c, some (o, out))) (ho : o.src = src) (hp : Spec.heightResetVar x src ≤ Spec.heightObsVar x src) :
    |Spec.heightNow x h src - Spec.heightThen x h src| / 2 ≤ |out.st.f.s 9 - Spec.heightThen x h src| := by
  obtain ⟨-, A, B⟩ := height_reset_then_fused x v h st src he hx hs hr hk hn hg hd c o out hf ho
  have hP : 0 ≤ Spec.heightResetVar x src := by cases src <;> unfold Spec.heightResetVar <;> dsimp only <;> positivity
  have hR : 0 < Spec.heightObsVar x src := by
    cases src <;> unfold Spec.heightObsVar <;> dsimp only
    · exact pow_pos (lt_of_lt_of_le (by norm_num) (le_max_right _ _)) 2
    · exact lt_of_lt_of_le (by norm_num) (gpsHeightVariance_spec _ _ _).2
    · exact lt_of_lt_of_le (by norm_num) (le_max_right _ _)
    · exact lt_of_lt_of_le (by norm_num) (le_max_right _ _)
  have hG : 0 ≤ Spec.heightGate x src := by
    cases src <;> exact le_trans zero_le_one (le_max_right _ _)
  have key := afterReset_half (Spec.heightNow x h src) (out.st.f.s 9) (Spec.heightNow x h src - Spec.heightThen x h src)
    (Spec.limited v.badVertAccel (Spec.heightNow x h src - Spec.heightThen x h src) (Spec.heightGate x src) (Spec.heightResetVar x src + Spec.heightObsVar x src))
    (Spec.heightResetVar x src) (Spec.heightObsVar x src) hP hR hp (limited_toward _ _ _ _ hG) ?_
  · rwa [sub_sub_cancel] at key
  · by_cases cc : (Spec.heightNow x h src - Spec.heightThen x h src) ^ 2 ≤ Spec.heightGate x src ^ 2 * (Spec.heightResetVar x src + Spec.heightObsVar x src) ∨ v.badVertAccel = true
    · exact Or.inl (A cc).2
    · exact Or.inr (B cc).2

/-- **C171 (variances).** The hypothesis of `height_reset_error`. -/
theorem height_reset_var_le (x : HIn) :
    (0 ≤ x.baroNoise → Spec.heightResetVar x .baro ≤ Spec.heightObsVar x .baro) ∧ Spec.heightResetVar x .rng ≤ Spec.heightObsVar x .rng ∧
    (0 ≤ x.gpsVaccNew → x.gpsVaccNew ≤ x.gpsVacc → x.gpsVacc ≤ 3 / 2 * x.posNoaidNoise → Spec.heightResetVar x .gps ≤ Spec.heightObsVar x .gps) := by
  refine ⟨fun h => pow_le_pow_left₀ h (le_max_left _ _) 2, le_trans ?_ (le_max_left _ _), fun h0 h1 h2 => ?_⟩
  · show x.rangeNoise ^ 2 ≤ x.rangeNoise ^ 2 + _
    nlinarith [sq_nonneg (x.rangeNoiseScaler * x.dist)]
  · show x.gpsVaccNew ^ 2 ≤ gpsHeightVariance _ _ _
    rw [(gpsHeightVariance_spec _ _ _).1]
    refine pow_le_pow_left₀ h0 (le_trans h1 (le_max_of_le_right (le_min le_rfl (le_max_of_le_left h2)))) 2

/-- **C171 (switch to GPS).** The height switches from barometer to GPS on a timeout.  The height of the GPS is first shifted to agree with the state at the fusion
horizon, then the state is set with the newest sample: the vertical position steps by the change of the GPS height between the horizon and now (a switch outside a timeout has no step, C93).
With the barometer as primary source the GPS height is shifted again in the same step, so that the step stays: the sample at the horizon agrees with the new state. -/
theorem height_switch_step (x : HIn) (h : HSt) (hs : Spec.only h.fl .baro) (hx : x.prev = h.fl)
    (ht : isTimedOut x.now h.tHgt 5000000 = true ∨ isTimedOut x.now x.tGoodVert x.badAccDelay = true) (ha : Spec.afterTimeout x h = some .gps) :
    let h1 := (heightTimeouts x h).1
    h1.posD = h.posD - (x.gpsHgtNew - x.gpsHgt) ∧
    (x.vdist = 0 → x.gpsReady = true → ¬ Spec.aid x → ∃ o, (controlHeight x h1).2 = some o ∧ o.src = .gps ∧ o.innov = 0) ∧
    (x.vdist = 1 → x.gpsReady = true → ¬ Spec.aid x → ∃ o, (controlHeight x h1).2 = some o ∧ o.src = .gps ∧ o.innov = x.gpsHgt - x.gpsHgtNew) := by
  intro h1
  have hb : h.fl.baro = true := by rw [show h.fl = _ from hs]
  have hp : x.prev.gps = false ∧ x.prev.rng = false := by rw [hx, show h.fl = _ from hs]; exact ⟨rfl, rfl⟩
  have hcond : x.gpsIntermittent = false ∧ ((x.gpsVaccNew < x.reqVacc ∧ isRecent x.now x.tBadVert 10000000 = false) ∨ h.baroFaulty = true) := by
    unfold Spec.afterTimeout at ha
    rw [if_pos hb] at ha
    by_cases c : x.gpsIntermittent = false ∧ ((x.gpsVaccNew < x.reqVacc ∧ isRecent x.now x.tBadVert 10000000 = false) ∨ h.baroFaulty = true)
    · exact c
    · rw [if_neg c] at ha
      split at ha
      · exact absurd ha (by simp)
      · exact absurd (Option.some.inj ha) (by decide)
  have e : h1 = { Control.resetHeight x { startGps x { h with baroFaulty := true } with warn := true } with tHgt := x.now } := by
    have ht' : (isTimedOut x.now h.tHgt 5000000 || isTimedOut x.now x.tGoodVert x.badAccDelay) = true := by
      rcases ht with h | h <;> simp [h]
    have hq : (!x.gpsIntermittent && ((decide (x.gpsVaccNew < x.reqVacc) && !isRecent x.now x.tBadVert 10000000) || h.baroFaulty)) = true := by
      rcases hcond with ⟨a, ⟨b, c⟩ | b⟩ <;> simp_all
    show (heightTimeouts x h).1 = _
    unfold heightTimeouts
    dsimp only
    rw [if_pos ht', if_pos hb, if_pos hq]
    rfl
  have hgp : startGps x { h with baroFaulty := true } = { h with baroFaulty := true, fl := ⟨false, true, false, false⟩, offset := x.gpsHgt - x.gpsAltRef + h.posD } := by
    unfold startGps
    rw [hp.1]
    rfl
  have G : Spec.only ({ startGps x { h with baroFaulty := true } with warn := true } : HSt).fl .gps := by rw [hgp]; rfl
  obtain ⟨-, -, V3, -, -, -, -⟩ := reset_height_values x { startGps x { h with baroFaulty := true } with warn := true }
  obtain ⟨V, -, -⟩ := V3 G hcond.1
  obtain ⟨f1, -, f3, f4, f5, -⟩ := resetHeight_frame x { startGps x { h with baroFaulty := true } with warn := true }
  have p1 : h1.posD = h.posD - (x.gpsHgtNew - x.gpsHgt) := by
    rw [e]
    refine V.trans ?_
    rw [hgp]
    show x.gpsHgt - x.gpsAltRef + h.posD - (x.gpsHgtNew - x.gpsAltRef) = _
    ring
  have g1 : h1.fl = ⟨false, true, false, false⟩ := by rw [e]; exact f1.trans (by rw [hgp])
  have o1 : h1.offset = x.gpsHgt - x.gpsAltRef + h.posD := by rw [e]; exact f4.trans (by rw [hgp])
  have b1 : h1.baroFaulty = true := by rw [e]; exact f3.trans (by rw [hgp])
  have key : ∀ off, selectHeight x h1 = ({ h1 with offset := off }, true) → ∃ o, (controlHeight x h1).2 = some o ∧ o.src = .gps ∧ o.innov = h1.posD - (off - (x.gpsHgt - x.gpsAltRef)) := by
    intro off hsel
    obtain ⟨D1, -, D3⟩ := controlHeight_fused x h1
    have hfl : (controlHeight x h1).1.fl = ⟨false, true, false, false⟩ := by rw [controlHeight_fl, hsel]; exact g1
    have hD := D3 (by rw [hfl]; simp)
    rw [hsel, if_pos rfl] at hD
    have hu : ∀ t, (updateBaroOffset x t).posD = t.posD ∧ (updateBaroOffset x t).offset = t.offset := by
      intro t; unfold updateBaroOffset; split <;> exact ⟨rfl, rfl⟩
    obtain ⟨-, O1, -, O3, -⟩ := height_observation x x.dist (controlHeight x h1).1 (by rw [hfl]; decide)
    obtain ⟨o, w0, -, -, w3⟩ := O3 (by rw [hfl])
    refine ⟨o, hD.trans w0, ?_, ?_⟩
    · have := (O1 o w0).1
      rw [hfl] at this
      revert this
      cases o.src <;> unfold Spec.only <;> first | (intro _; rfl) | (intro h; exact absurd h (by decide))
    · rw [w3, D1, (hu _).1, (hu _).2, hsel]
  have ad : ¬ Spec.aid x → (decide (x.rangeAid = 1) && x.rngAidSuitable) = false := by
    intro h
    rw [← Bool.not_eq_true, Bool.and_eq_true, decide_eq_true_eq]
    exact h
  refine ⟨p1, fun v0 hr hn => ?_, fun v1 hr hn => ?_⟩
  · obtain ⟨o, a, b, c⟩ := key (x.gpsHgt - x.gpsAltRef + h1.posD) (by
      unfold selectHeight
      simp only [v0, ad hn, b1, g1, hr, hcond.1, hp.1]
      simp)
    exact ⟨o, a, b, c.trans (by ring)⟩
  · have hsel : selectHeight x h1 = (h1, true) := by
      unfold selectHeight
      simp only [v1, ad hn, b1, g1, hr, hcond.1, hp.1, hp.2]
      simp [g1]
    obtain ⟨o, a, b, c⟩ := key h1.offset hsel
    refine ⟨o, a, b, c.trans ?_⟩
    rw [o1, p1]
    ring

/-! ## Non-vacuity -/

/-- barometer in use, 10 s without height; the barometer has climbed 1 m between the horizon and now -/
def exResetIn : HIn := { exHIn with vdist := 0, gpsIntermittent := true, baroHgtNew := 12 }

/-- the same with the ground effect compensation off -/
def exResetSt : HSt := { exHSt with gndEffect := false }

theorem exReset_src : Spec.afterTimeout exResetIn exResetSt = some .baro := by
  have h1 : exResetSt.fl.baro = true := rfl
  have h2 : exResetIn.gpsIntermittent = true := rfl
  have h3 : exResetSt.baroFaulty = false := rfl
  unfold Spec.afterTimeout
  rw [if_pos h1, if_neg (by rw [h2]; exact fun h => absurd h.1 (by decide)), if_neg (by rw [h3]; decide)]

/-- the situation exists: newest height −11 m, height at the horizon −10 m; after reset and fusion the state at the horizon is −10.5 m -/
example (st : VPSt) (hd : ∀ i, 0 ≤ st.f.P i i) (fx : FixIn ℝ) :
    ∃ c o out, heightResetStep exResetIn ⟨fx, false, false⟩ exResetSt st = (c, some (o, out)) ∧ out.ret = true ∧ out.st.f.s 9 = -21 / 2 := by
  have hs : Spec.only exResetSt.fl .baro := rfl
  obtain ⟨T1, T2⟩ := height_timeout_source exResetIn exResetSt (le_of_eq (only_sources hs)) (Or.inl (by decide))
  have hr := T1.mpr ⟨_, exReset_src⟩
  have hk := T2 _ exReset_src
  obtain ⟨t1, -, -⟩ := timeouts_kept exResetIn exResetSt .baro hs hr hk
  have hbf : (heightTimeouts exResetIn exResetSt).1.baroFaulty = false := by
    rw [t1]
    exact (resetHeight_frame exResetIn _).2.2.1
  obtain ⟨-, S, -⟩ := select_baro_primary exResetIn (heightTimeouts exResetIn exResetSt).1 ⟨show (0 : ℤ) ≠ 1 by decide, show (0 : ℤ) ≠ 2 by decide, show (0 : ℤ) ≠ 3 by decide⟩
  obtain ⟨S1, S2, -⟩ := S ⟨by simp [Spec.aid, exResetIn, exHIn], rfl, hbf⟩
  obtain ⟨D1, -, D3⟩ := controlHeight_fused exResetIn (heightTimeouts exResetIn exResetSt).1
  have hcs : Spec.only (controlHeight exResetIn (heightTimeouts exResetIn exResetSt).1).1.fl .baro := by rw [controlHeight_fl]; exact S1
  have hD := D3 (by rw [show (controlHeight exResetIn (heightTimeouts exResetIn exResetSt).1).1.fl = _ from hcs]; simp)
  rw [if_pos S2] at hD
  obtain ⟨-, O1, O2, -⟩ := height_observation exResetIn exResetIn.dist (controlHeight exResetIn (heightTimeouts exResetIn exResetSt).1).1 (le_of_eq (only_sources hcs))
  obtain ⟨o, w0, -⟩ := O2 (by rw [show (controlHeight exResetIn (heightTimeouts exResetIn exResetSt).1).1.fl = _ from hcs])
  have hosrc : o.src = .baro := by
    have := (O1 o w0).1
    rw [show (controlHeight exResetIn (heightTimeouts exResetIn exResetSt).1).1.fl = _ from hcs] at this
    revert this
    cases o.src <;> unfold Spec.only <;> first | (intro _; rfl) | (intro h; exact absurd h (by decide))
  have hf : ∃ c out, heightResetStep exResetIn ⟨fx, false, false⟩ exResetSt st = (c, some (o, out)) := by
    unfold heightResetStep
    dsimp only
    rw [hD.trans w0]
    exact ⟨_, _, rfl⟩
  obtain ⟨c, out, hf⟩ := hf
  obtain ⟨-, A, -⟩ := height_reset_then_fused exResetIn ⟨fx, false, false⟩ exResetSt st .baro (by decide) rfl hs hr hk (by decide) (fun _ => rfl) hd c o out hf hosrc
  have e1 : Spec.heightNow exResetIn exResetSt .baro = -11 := by show (1 : ℝ) - 12 = -11; norm_num
  have e2 : Spec.heightThen exResetIn exResetSt .baro = -10 := by show (1 : ℝ) - 11 = -10; norm_num
  have e3 : Spec.heightResetVar exResetIn .baro = 4 := by show (2 : ℝ) ^ 2 = 4; norm_num
  have e4 : Spec.heightObsVar exResetIn .baro = 4 := by show (max (2 : ℝ) (1 / 100)) ^ 2 = 4; norm_num
  have e5 : Spec.heightGate exResetIn .baro = 5 := by show max (5 : ℝ) 1 = 5; norm_num
  rw [e1, e2, e3, e4, e5] at A
  obtain ⟨a1, a2⟩ := A (Or.inl (by norm_num))
  refine ⟨c, o, out, hf, a1, a2.trans ?_⟩
  unfold Spec.afterReset Spec.limited
  norm_num

/-- the hypothesis on the variances for the barometer -/
example : Spec.heightResetVar exResetIn .baro ≤ Spec.heightObsVar exResetIn .baro := (height_reset_var_le exResetIn).1 (show (0 : ℝ) ≤ 2 by norm_num)

/-- the switch: barometer in use, accurate GPS whose height has risen 5 m since the horizon; the state goes from −10 m to −15 m -/
example : Spec.afterTimeout { exHIn with gpsHgtNew := 505 } exHSt = some .gps ∧ (heightTimeouts { exHIn with gpsHgtNew := 505 } exHSt).1.posD = -15 := by
  have ha : Spec.afterTimeout { exHIn with gpsHgtNew := 505 } exHSt = some .gps := by
    have h1 : exHSt.fl.baro = true := rfl
    have h2 : exHIn.gpsVaccNew < exHIn.reqVacc := show (1 : ℝ) < 8 by norm_num
    unfold Spec.afterTimeout
    rw [if_pos h1, if_pos ⟨rfl, Or.inl ⟨h2, by decide⟩⟩]
  refine ⟨ha, (height_switch_step { exHIn with gpsHgtNew := 505 } exHSt rfl rfl (Or.inl (by decide)) ha).1.trans ?_⟩
  show (-10 : ℝ) - (505 - 500) = -15
  norm_num

end

end Ecl.Whole
