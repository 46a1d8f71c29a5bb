import Verif.Fusion.GenDragX
import Verif.Fusion.GenDragY
import Verif.Fusion.Sideslip

/-!
# Drag fusion (C32) — EKF/drag_fusion.cpp
-/

set_option linter.unusedVariables false

namespace Ecl.Fusion

open Ecl.Cov

noncomputable section

/-- inputs of `fuseDrag` -/
structure DragIn where
  /-- `_params.drag_noise` -/
  noise : ℝ
  /-- `_air_density` -/
  airDensity : ℝ
  bcoefX : ℝ
  bcoefY : ℝ
  /-- `_drag_sample_delayed.accelXY` -/
  accel : Fin 2 → ℝ
  /-- `_dt_ekf_avg` -/
  dt : ℝ
  fx : FixIn ℝ

/-- state of `fuseDrag` -/
structure DragSt where
  f : Filt
  innov : Fin 2 → ℝ
  innovVar : Fin 2 → ℝ
  testRatio : Fin 2 → ℝ

/-- element update -/
def setAt {α : Type*} (v : Fin 2 → α) (a : Fin 2) (y : α) : Fin 2 → α := fun b => if b = a then y else v b

/-- the delta velocity bias state of an axis -/
def biasIdx (a : Fin 2) : Fin N := ⟨13 + a.val, by have := a.isLt; show _ < 24; omega⟩

/-- one pass of the loop of `fuseDrag`, EKF/drag_fusion.cpp:83-268; `w` is `rel_wind_body`; second component: the loop goes on -/
def dragAxis (x : DragIn) (w : V3 ℝ) (a : Fin 2) (st : DragSt) : DragSt × Bool :=
  let R := max x.noise (1 / 2)
  let rho := max x.airDensity (1 / 10)
  let bci := if a = 0 then 1 / x.bcoefX else 1 / x.bcoefY
  let s := st.f.s
  let P := st.f.P
  let mea := x.accel a - s (biasIdx a) / x.dt
  let airSpd := Real.sqrt (2 * |mea| / (bci * rho))
  let Kacc := max (1 / 10) (rho * bci * airSpd)
  let S := if a = 0 then DragX.S P s R Kacc 0 else DragY.S P s R Kacc 0
  let st := { st with innovVar := setAt st.innovVar a S }
  if S < R then (st, false)
  else
    let H := sparse (if a = 0 then DragX.hList P s R Kacc 0 else DragY.hList P s R Kacc 0)
    let k := if a = 0 then DragX.gain P s R Kacc 0 else DragY.gain P s R Kacc 0
    let wa := w (a.castSucc)
    let sign : ℝ := if wa ≥ 0 then 1 else -1
    let pred := -(1 / 2) * bci * rho * sq wa * sign
    let innov := pred - mea
    let ratio := sq innov / (25 * S)
    let st := { st with innov := setAt st.innov a innov, testRatio := setAt st.testRatio a ratio }
    if ratio ≤ 1 then ({ st with f := (update x.fx k H innov st.f).1 }, true) else (st, true)

/-- `fuseDrag`, EKF/drag_fusion.cpp:47-270 -/
def fuseDrag (x : DragIn) (st : DragSt) : DragSt :=
  if x.bcoefX < 1 ∨ x.bcoefY < 1 then st
  else
    let w := relWindBody st.f.s
    let r := dragAxis x w 0 st
    if r.2 then (dragAxis x w 1 r.1).1 else r.1

/-- ballistic coefficient of a body axis -/
def Spec.bcoef (x : DragIn) (a : Fin 2) : ℝ := if a = 0 then x.bcoefX else x.bcoefY

/-- measured specific force along a body axis, accelerometer bias (m/s per filter step) removed -/
def Spec.dragMeas (x : DragIn) (s : Vec ℝ) (a : Fin 2) : ℝ := x.accel a - s (biasIdx a) / x.dt

/-- drag force per mass for a relative wind of `u` along the axis: `ρ u |u| / (2 Bc)`, opposite to `u` -/
def Spec.dragPred (x : DragIn) (a : Fin 2) (u : ℝ) : ℝ := -(max x.airDensity (1 / 10) * (u * |u|) / (2 * Spec.bcoef x a))

/-- slope of the drag law at the airspeed that explains the measured force, at least 0.1 -/
def Spec.dragSlope (x : DragIn) (s : Vec ℝ) (a : Fin 2) : ℝ :=
  max (1 / 10) (max x.airDensity (1 / 10) / Spec.bcoef x a *
    Real.sqrt (2 * |Spec.dragMeas x s a| * Spec.bcoef x a / max x.airDensity (1 / 10)))

/-- What fusing one axis does, for relative wind `u`: `H` is the gradient of slope times body-axis air velocity at fixed slope,
`S = H P Hᵀ + R`; below `R` nothing but the reported variance changes and the fusion ends; outside 5 sigma only the reports
change; otherwise the wind states are corrected with the Kalman gain. -/
def Spec.DragAxis (x : DragIn) (u : ℝ) (a : Fin 2) (st st' : DragSt) (go : Bool) : Prop :=
  let R := max x.noise (1 / 2)
  ∃ H : Vec ℝ, Spec.IsGradient (fun s => -Spec.dragSlope x st.f.s a * Spec.bodyAir s a.castSucc) st.f.s H ∧
    let S := Spec.innovVar st.f.P H R
    let innov := Spec.dragPred x a u - Spec.dragMeas x st.f.s a
    (S < R → go = false ∧ st' = { st with innovVar := setAt st.innovVar a S }) ∧
    (R ≤ S → go = true ∧ st'.innov = setAt st.innov a innov ∧ st'.innovVar = setAt st.innovVar a S ∧
      st'.testRatio = setAt st.testRatio a (innov ^ 2 / (25 * S)) ∧
      st'.f = if innov ^ 2 ≤ 25 * S then (update x.fx (Spec.gain st.f.P H R (fun i => 22 ≤ i.val)) H innov st.f).1 else st.f)

end

theorem dragX_gradient (s s' : Vec ℝ) (P : Mat ℝ) (R κ : ℝ) :
    Spec.IsGradient (fun s => -κ * Spec.bodyAir s 0) s (sparse (DragX.hList P s R κ 0)) := by
  intro d
  rw [sum_sparse_mul]
  simp only [bodyAir_0]
  refine (hasDerivAt_of_cubic (b := (List.map (fun p => d p.1 * p.2) (DragX.hList P s R κ 0)).sum) fun t => ?_)
  simp only [DragX.hList, List.map_cons, List.map_nil, List.sum_cons, List.sum_nil, DragX.HK0, DragX.HK1, DragX.HK2, DragX.HK3,
    DragX.HK4, DragX.HK5, DragX.HK6, DragX.HK7, DragX.HK8, DragX.HK9, DragX.HK10, DragX.HK11]
  ring

theorem dragY_gradient (s s' : Vec ℝ) (P : Mat ℝ) (R κ : ℝ) :
    Spec.IsGradient (fun s => -κ * Spec.bodyAir s 1) s (sparse (DragY.hList P s R κ 0)) := by
  intro d
  rw [sum_sparse_mul]
  simp only [bodyAir_1]
  refine (hasDerivAt_of_cubic (b := (List.map (fun p => d p.1 * p.2) (DragY.hList P s R κ 0)).sum) fun t => ?_)
  simp only [DragY.hList, List.map_cons, List.map_nil, List.sum_cons, List.sum_nil, DragY.HK0, DragY.HK1, DragY.HK2, DragY.HK3,
    DragY.HK4, DragY.HK5, DragY.HK6, DragY.HK7, DragY.HK8, DragY.HK9, DragY.HK10, DragY.HK11]
  ring

theorem dragAxis_spec (x : DragIn) (w : V3 ℝ) (a : Fin 2) (st : DragSt) (hb : 1 ≤ x.bcoefX ∧ 1 ≤ x.bcoefY)
    (hs : ∀ i j, st.f.P i j = st.f.P j i) :
    Spec.DragAxis x (w a.castSucc) a st (dragAxis x w a st).1 (dragAxis x w a st).2 := by
  have hbc : 1 ≤ Spec.bcoef x a := by unfold Spec.bcoef; split <;> [exact hb.1; exact hb.2]
  have hbi : (if a = 0 then 1 / x.bcoefX else 1 / x.bcoefY) = 1 / Spec.bcoef x a := by unfold Spec.bcoef; split <;> rfl
  have hrho : 0 < max x.airDensity (1 / 10) := lt_of_lt_of_le (by norm_num) (le_max_right _ _)
  have hsl : max (1 / 10) (max x.airDensity (1 / 10) * (1 / Spec.bcoef x a) *
      Real.sqrt (2 * |Spec.dragMeas x st.f.s a| / (1 / Spec.bcoef x a * max x.airDensity (1 / 10)))) = Spec.dragSlope x st.f.s a := by
    unfold Spec.dragSlope
    congr 1
    rw [mul_one_div]
    congr 2
    have : Spec.bcoef x a ≠ 0 := by linarith
    field_simp
  have hpred : -(1 / 2) * (1 / Spec.bcoef x a) * max x.airDensity (1 / 10) * sq (w a.castSucc) * (if w a.castSucc ≥ 0 then 1 else -1)
      = Spec.dragPred x a (w a.castSucc) := by
    unfold Spec.dragPred sq
    have : Spec.bcoef x a ≠ 0 := by linarith
    split
    · rename_i h; rw [abs_of_nonneg h]; field_simp
    · rename_i h; rw [abs_of_neg (not_le.mp h)]; field_simp
  have hR0 : (0 : ℝ) < max x.noise (1 / 2) := lt_of_lt_of_le (by norm_num) (le_max_right _ _)
  unfold Spec.DragAxis dragAxis
  simp only
  rw [hbi, show x.accel a - st.f.s (biasIdx a) / x.dt = Spec.dragMeas x st.f.s a from rfl, hsl, hpred]
  have key : ∃ H : Vec ℝ, Spec.IsGradient (fun s => -Spec.dragSlope x st.f.s a * Spec.bodyAir s a.castSucc) st.f.s H ∧
      sparse (if a = 0 then DragX.hList st.f.P st.f.s (max x.noise (1 / 2)) (Spec.dragSlope x st.f.s a) 0
        else DragY.hList st.f.P st.f.s (max x.noise (1 / 2)) (Spec.dragSlope x st.f.s a) 0) = H ∧
      (if a = 0 then DragX.S st.f.P st.f.s (max x.noise (1 / 2)) (Spec.dragSlope x st.f.s a) 0
        else DragY.S st.f.P st.f.s (max x.noise (1 / 2)) (Spec.dragSlope x st.f.s a) 0) = Spec.innovVar st.f.P H (max x.noise (1 / 2)) ∧
      (if a = 0 then DragX.gain st.f.P st.f.s (max x.noise (1 / 2)) (Spec.dragSlope x st.f.s a) 0
        else DragY.gain st.f.P st.f.s (max x.noise (1 / 2)) (Spec.dragSlope x st.f.s a) 0)
        = Spec.gain st.f.P H (max x.noise (1 / 2)) (fun i => 22 ≤ i.val) := by
    have ha : a = 0 ∨ a = 1 := by omega
    rcases ha with rfl | rfl
    · refine ⟨_, dragX_gradient _ st.f.s st.f.P (max x.noise (1 / 2)) _, by simp, ?_, ?_⟩
      · rw [if_pos rfl]; exact DragX.S_eq _ _ _ _ _ hs
      · rw [if_pos rfl]; funext i; rw [DragX.gain_eq _ _ _ _ _ hs]; rfl
    · refine ⟨_, dragY_gradient _ st.f.s st.f.P (max x.noise (1 / 2)) _, by simp, ?_, ?_⟩
      · rw [if_neg (by decide)]; exact DragY.S_eq _ _ _ _ _ hs
      · rw [if_neg (by decide)]; funext i; rw [DragY.gain_eq _ _ _ _ _ hs]; rfl
  obtain ⟨H, hg, e1, e2, e3⟩ := key
  refine ⟨H, hg, ?_⟩
  rw [e1, e2, e3]
  constructor
  · intro h; rw [if_pos h]; exact ⟨rfl, rfl⟩
  · intro h
    rw [if_neg (not_lt.mpr h)]
    have hg : ∀ y : ℝ, sq y = y ^ 2 := fun y => (pow_two y).symm
    have hS : 0 < 25 * Spec.innovVar st.f.P H (max x.noise (1 / 2)) := by linarith
    rw [hg]
    simp only [div_le_one hS]
    split <;> exact ⟨rfl, rfl, rfl, rfl, rfl⟩

/-- the covariance stays symmetric through the first axis -/
theorem dragAxis_sym {x : DragIn} {u : ℝ} {a : Fin 2} {st st' : DragSt} {go : Bool} (h : Spec.DragAxis x u a st st' go)
    (hs : ∀ i j, st.f.P i j = st.f.P j i) (i j : Fin N) : st'.f.P i j = st'.f.P j i := by
  obtain ⟨H, -, h1, h2⟩ := h
  rcases lt_or_ge (Spec.innovVar st.f.P H (max x.noise (1 / 2))) (max x.noise (1 / 2)) with hS | hS
  · rw [(h1 hS).2]; exact hs i j
  · rw [(h2 hS).2.2.2.2]
    split
    · exact update_sym _ _ _ _ _ hs i j
    · exact hs i j

/-- **C32.** Drag fusion: nothing happens with a ballistic coefficient below 1; otherwise X then Y are fused, Y only if the X
innovation variance was healthy.  Both axes use the relative wind of the state before the fusion for the predicted force. -/
theorem drag_fusion (x : DragIn) (st : DragSt) (hs : ∀ i j, st.f.P i j = st.f.P j i) :
    (x.bcoefX < 1 ∨ x.bcoefY < 1 → fuseDrag x st = st) ∧
    (1 ≤ x.bcoefX → 1 ≤ x.bcoefY → ∃ mid go, Spec.DragAxis x (Spec.bodyAir st.f.s 0) 0 st mid go ∧
      (go = false → fuseDrag x st = mid) ∧
      (go = true → ∃ go', Spec.DragAxis x (Spec.bodyAir st.f.s 1) 1 mid (fuseDrag x st) go')) := by
  constructor
  · intro h; unfold fuseDrag; rw [if_pos h]
  · intro h1 h2
    refine ⟨(dragAxis x (relWindBody st.f.s) 0 st).1, (dragAxis x (relWindBody st.f.s) 0 st).2, ?_, ?_, ?_⟩
    · have := dragAxis_spec x (relWindBody st.f.s) 0 st ⟨h1, h2⟩ hs
      rwa [relWindBody_eq] at this ⊢
    · intro h
      unfold fuseDrag
      rw [if_neg (by rintro (h | h) <;> linarith)]
      simp only [h, Bool.false_eq_true, if_false]
    · intro h
      have e : fuseDrag x st = (dragAxis x (relWindBody st.f.s) 1 (dragAxis x (relWindBody st.f.s) 0 st).1).1 := by
        unfold fuseDrag
        rw [if_neg (by rintro (h | h) <;> linarith)]
        simp only [h, if_true]
      rw [e]
      have := dragAxis_spec x (relWindBody st.f.s) 1 (dragAxis x (relWindBody st.f.s) 0 st).1 ⟨h1, h2⟩
        (dragAxis_sym (dragAxis_spec x (relWindBody st.f.s) 0 st ⟨h1, h2⟩ hs) hs)
      refine ⟨(dragAxis x (relWindBody st.f.s) 1 (dragAxis x (relWindBody st.f.s) 0 st).1).2, ?_⟩
      have e1 : relWindBody st.f.s (Fin.castSucc 1) = Spec.bodyAir st.f.s 1 := by rw [relWindBody_eq]; rfl
      rw [e1] at this
      exact this

theorem dragAxis_spec_wind_only {x : DragIn} {u : ℝ} {a : Fin 2} {st st' : DragSt} {go : Bool} (h : Spec.DragAxis x u a st st' go)
    (hq : (attQuat st.f.s).normSq = 1) (i : Fin N) (hi : i.val < 22) : st'.f.s i = st.f.s i := by
  obtain ⟨H, -, h1, h2⟩ := h
  rcases lt_or_ge (Spec.innovVar st.f.P H (max x.noise (1 / 2))) (max x.noise (1 / 2)) with hS | hS
  · rw [(h1 hS).2]
  · rw [(h2 hS).2.2.2.2]
    split
    · have hz : ∀ j : Fin N, j.val < 22 → Spec.gain st.f.P H (max x.noise (1 / 2)) (fun i => 22 ≤ i.val) j = 0 := by
        intro j hj; unfold Spec.gain; rw [if_neg (by omega)]
      exact update_zero_gain _ _ _ _ _ hq (fun j hj => hz j (by omega)) i (hz i hi)
    · rfl

/-- **C32 (wind only).** Drag fusion never changes attitude, velocity, position, biases or magnetic field states. -/
theorem drag_wind_only (x : DragIn) (st : DragSt) (hs : ∀ i j, st.f.P i j = st.f.P j i)
    (hq : (attQuat st.f.s).normSq = 1) (i : Fin N) (hi : i.val < 22) : (fuseDrag x st).f.s i = st.f.s i := by
  obtain ⟨h0, h1⟩ := drag_fusion x st hs
  by_cases hb : x.bcoefX < 1 ∨ x.bcoefY < 1
  · rw [h0 hb]
  push Not at hb
  obtain ⟨mid, go, hm, hf, ht⟩ := h1 hb.1 hb.2
  cases go
  · rw [hf rfl]; exact dragAxis_spec_wind_only hm hq i hi
  · obtain ⟨go', hm'⟩ := ht rfl
    have hm1 := dragAxis_spec_wind_only hm hq
    have hq' : (attQuat mid.f.s).normSq = 1 := by
      rw [← hq]; unfold attQuat
      rw [hm1 0 (by decide), hm1 1 (by decide), hm1 2 (by decide), hm1 3 (by decide)]
    rw [dragAxis_spec_wind_only hm' hq' i hi, hm1 i hi]

/-- the hypotheses are met by a level vehicle flying north with an identity covariance -/
example : ∃ st : DragSt, (∀ i j, st.f.P i j = st.f.P j i) ∧ (attQuat st.f.s).normSq = 1 ∧ Spec.bodyAir st.f.s 0 = 10 := by
  refine ⟨⟨exFilt, 0, 0, 0⟩, idCov_psd.symm, exState_unit, ?_⟩
  show Spec.bodyAir exState 0 = 10
  rw [bodyAir_0]; simp [exState]

end Ecl.Fusion
