import Verif.Fusion.GenAsp

/-!
# Airspeed fusion (C29) — EKF/airspeed_fusion.cpp
-/

set_option linter.unusedVariables false

namespace Ecl.Fusion

open Ecl.Cov

noncomputable section

/-- data read by the wind resets -/
structure WindResetIn where
  /-- `_tas_data_ready` -/
  tasReady : Bool
  imuTime : UInt64
  tasTime : UInt64
  tas : ℝ
  easNoise : ℝ
  eas2tas : ℝ
  initialWindUnc : ℝ

/-- `resetWindStates`, EKF/airspeed_fusion.cpp:174-187 (unsigned time difference wraps) -/
def resetWindStates (x : WindResetIn) (s : Vec ℝ) : Vec ℝ :=
  let yaw := Utils.getEuler321YawQ (attQuat s)
  let w : ℝ × ℝ :=
    if x.tasReady = true ∧ x.imuTime - x.tasTime < 500000 then
      (s 4 - x.tas * Real.cos yaw, s 5 - x.tas * Real.sin yaw)
    else (0, 0)
  fun i => if i = 22 then w.1 else if i = 23 then w.2 else s i

/-- `get_true_airspeed`, EKF/airspeed_fusion.cpp:165-169 -/
def getTrueAirspeed (s : Vec ℝ) : ℝ := Real.sqrt (sq (s 4 - s 22) + sq (s 5 - s 23) + sq (s 6))

/-- `resetWindStates(); resetWindCovariance();` -/
def resetWind (x : WindResetIn) (f : Filt) : Filt :=
  let s := resetWindStates x f.s
  { f with
    s := s
    M := { f.M with P := resetWindCov ⟨x.tasReady, x.imuTime, x.tasTime, Utils.getEuler321YawQ (attQuat s), x.easNoise, x.eas2tas,
      x.tas, s 22, s 23, x.initialWindUnc⟩ f.M.P } }

/-- `initialiseCovariance(); _state.wind_vel.setZero();` -/
def resetFull (x : InitIn) (f : Filt) : Filt :=
  let f := initCov x f
  { f with s := fun i => if i = 22 ∨ i = 23 then 0 else f.s i }

/-- the conditioning-failure action of airspeed and sideslip fusion, EKF/airspeed_fusion.cpp:97-106,
EKF/sideslip_fusion.cpp:140-149 -/
def windFault (w : WindResetIn) (ini : InitIn) (windOnly : Bool) (f : Filt) : Filt :=
  if windOnly then resetWind w f else resetFull ini f

/-- inputs of `fuseAirspeed` -/
structure AspIn where
  easNoise : ℝ
  eas2tas : ℝ
  /-- `_airspeed_sample_delayed.true_airspeed` -/
  tas : ℝ
  gate : ℝ
  /-- `_time_last_imu` -/
  now : UInt64
  /-- `_is_wind_dead_reckoning` -/
  windDR : Bool
  fx : FixIn ℝ
  ini : InitIn
  wr : WindResetIn

/-- state of `fuseAirspeed` -/
structure AspSt where
  f : Filt
  /-- `_fault_status.flags.bad_airspeed` -/
  bad : Bool
  /-- `_innov_check_fail_status.flags.reject_airspeed` -/
  reject : Bool
  /-- `_control_status.flags.fuse_aspd` -/
  fuseAspd : Bool
  /-- `_time_last_arsp_fuse` -/
  lastFuse : UInt64
  innov : ℝ
  innovVar : ℝ
  testRatio : ℝ

/-- `fuseAirspeed`, EKF/airspeed_fusion.cpp:48-152 -/
def fuseAirspeed (x : AspIn) (st : AspSt) : AspSt :=
  let R := sq (constrain x.easNoise (1 / 2) 5 * constrain x.eas2tas (9 / 10) 10)
  let windOnly := !x.windDR
  let P := st.f.P
  let s := st.f.s
  let v := Real.sqrt (Asp.HK2 P s R 0 0)
  if v < 1 then st
  else
    let S := Asp.S P s R v 0
    let st := { st with innovVar := S }
    if S < R then { st with f := windFault x.wr x.ini windOnly st.f, bad := true }
    else
      let st := { st with bad := false }
      let H := sparse (Asp.hList P s R v 0)
      let k := Asp.gain (!windOnly) P s R v 0
      let innov := v - x.tas
      let st := { st with innov := innov, testRatio := sq innov / (sq (max x.gate 1) * S) }
      if st.testRatio > 1 then { st with reject := true }
      else
        let st := { st with reject := false }
        let r := update x.fx k H innov st.f
        let st := { st with f := r.1, bad := !r.2 }
        if r.2 then { st with lastFuse := x.now, fuseAspd := true } else st

/-- speed through the air: norm of ground velocity minus (horizontal) wind -/
def Spec.airspeed (s : Vec ℝ) : ℝ := Real.sqrt ((s 4 - s 22) ^ 2 + (s 5 - s 23) ^ 2 + s 6 ^ 2)

/-- airspeed variance: noise limited to [0.5, 5] m/s scaled by the EAS to TAS factor limited to [0.9, 10] -/
def Spec.airspeedVar (easNoise eas2tas : ℝ) : ℝ := (max (1 / 2) (min easNoise 5) * max (9 / 10) (min eas2tas 10)) ^ 2

end

theorem airspeedVar_range (n e : ℝ) : 2025 / 10000 ≤ Spec.airspeedVar n e ∧ Spec.airspeedVar n e ≤ 2500 := by
  unfold Spec.airspeedVar
  have a1 : (1 / 2 : ℝ) ≤ max (1 / 2) (min n 5) := le_max_left _ _
  have a2 : max (1 / 2 : ℝ) (min n 5) ≤ 5 := max_le (by norm_num) (min_le_right _ _)
  have b1 : (9 / 10 : ℝ) ≤ max (9 / 10) (min e 10) := le_max_left _ _
  have b2 : max (9 / 10 : ℝ) (min e 10) ≤ 10 := max_le (by norm_num) (min_le_right _ _)
  have p1 : (1 / 2 * (9 / 10) : ℝ) ≤ max (1 / 2) (min n 5) * max (9 / 10) (min e 10) := by
    apply mul_le_mul a1 b1 <;> linarith
  have p2 : max (1 / 2) (min n 5) * max (9 / 10) (min e 10) ≤ 5 * 10 := by
    apply mul_le_mul a2 b2 <;> linarith
  constructor
  · calc (2025 / 10000 : ℝ) = (1 / 2 * (9 / 10)) ^ 2 := by norm_num
      _ ≤ _ := pow_le_pow_left₀ (by norm_num) p1 2
  · calc _ ≤ ((5 * 10 : ℝ)) ^ 2 := pow_le_pow_left₀ (by linarith) p2 2
      _ = 2500 := by norm_num

theorem airspeed_gradient (s : Vec ℝ) (P : Mat ℝ) (R : ℝ) (hv : 0 < Spec.airspeed s) :
    Spec.IsGradient Spec.airspeed s (sparse (Asp.hList P s R (Spec.airspeed s) 0)) := by
  intro d
  rw [sum_sparse_mul]
  have hpos : 0 < (s 4 - s 22) ^ 2 + (s 5 - s 23) ^ 2 + s 6 ^ 2 := Real.sqrt_pos.mp hv
  have h1 : HasDerivAt (fun t : ℝ => (s 4 + t * d 4 - (s 22 + t * d 22)) ^ 2 + (s 5 + t * d 5 - (s 23 + t * d 23)) ^ 2
      + (s 6 + t * d 6) ^ 2)
      (2 * ((s 4 - s 22) * (d 4 - d 22) + (s 5 - s 23) * (d 5 - d 23) + s 6 * d 6)) 0 := by
    refine hasDerivAt_of_cubic fun t => ?_
    ring
  have h2 := h1.sqrt (by simp only [zero_mul, add_zero]; exact hpos.ne')
  refine h2.congr_deriv ?_
  simp only [Asp.hList, List.map_cons, List.map_nil, List.sum_cons, List.sum_nil, Asp.HK4, Asp.HK5, Asp.HK3, Asp.HK0, Asp.HK1,
    zero_mul, add_zero]
  change _ / (2 * Spec.airspeed s) = _
  field_simp
  ring

/-- **C29.** Airspeed fusion.  Below 1 m/s predicted airspeed nothing happens.  Otherwise there is a row `H`, the gradient of
the airspeed, such that with `S = H P Hᵀ + R`: if `S < R` the fault is flagged and the wind or everything is reset; if the
innovation is outside the gate state and covariance stay and the rejection is flagged; otherwise the update with gain
`P Hᵀ / S` (wind states only, unless airspeed is the only aiding) is run, and the fault flag, time stamp and in-use flag
reflect whether it was applied. -/
theorem airspeed_fusion (x : AspIn) (st : AspSt) (hs : ∀ i j, st.f.P i j = st.f.P j i) :
    let v := Spec.airspeed st.f.s
    let R := Spec.airspeedVar x.easNoise x.eas2tas
    (v < 1 → fuseAirspeed x st = st) ∧
    (1 ≤ v → ∃ H : Vec ℝ, Spec.IsGradient Spec.airspeed st.f.s H ∧
      let S := Spec.innovVar st.f.P H R
      let r := update x.fx (Spec.gain st.f.P H R (fun i => x.windDR = true ∨ 22 ≤ i.val)) H (v - x.tas) st.f
      (S < R → fuseAirspeed x st =
        { st with innovVar := S, f := windFault x.wr x.ini (!x.windDR) st.f, bad := true }) ∧
      (R ≤ S → (max x.gate 1) ^ 2 * S < (v - x.tas) ^ 2 → fuseAirspeed x st =
        { st with innovVar := S, bad := false, innov := v - x.tas,
                  testRatio := (v - x.tas) ^ 2 / ((max x.gate 1) ^ 2 * S), reject := true }) ∧
      (R ≤ S → (v - x.tas) ^ 2 ≤ (max x.gate 1) ^ 2 * S → fuseAirspeed x st =
        { f := r.1, bad := !r.2, reject := false, innov := v - x.tas, innovVar := S,
          testRatio := (v - x.tas) ^ 2 / ((max x.gate 1) ^ 2 * S),
          lastFuse := if r.2 then x.now else st.lastFuse,
          fuseAspd := if r.2 then true else st.fuseAspd })) := by
  intro v R
  have hR : sq (constrain x.easNoise (1 / 2) 5 * constrain x.eas2tas (9 / 10) 10) = R := by
    rw [constrain_eq (by norm_num), constrain_eq (by norm_num)]
    show _ * _ = _ ^ 2
    rw [pow_two]
  have hv : Real.sqrt (Asp.HK2 st.f.P st.f.s R 0 0) = v := rfl
  have hR0 : 0 < R := lt_of_lt_of_le (by norm_num) (airspeedVar_range _ _).1
  unfold fuseAirspeed
  simp only [hR, hv]
  constructor
  · intro h; rw [if_pos h]
  · intro h
    have hv0 : 0 < v := by linarith
    refine ⟨sparse (Asp.hList st.f.P st.f.s R v 0), airspeed_gradient _ _ _ hv0, ?_⟩
    have ha : v ^ 2 = Asp.HK2 st.f.P st.f.s R v 0 := by
      show Real.sqrt _ ^ 2 = _
      rw [Real.sq_sqrt (by positivity)]; rfl
    have hS := Asp.S_eq st.f.P st.f.s R v 0 hs ha
    have hk : Asp.gain (!!x.windDR) st.f.P st.f.s R v 0 =
        Spec.gain st.f.P (sparse (Asp.hList st.f.P st.f.s R v 0)) R (fun i => x.windDR = true ∨ 22 ≤ i.val) := by
      funext i
      rw [Asp.gain_eq _ _ _ _ _ _ hs ha]
      unfold Spec.gain
      rw [Bool.not_not]
    rw [if_neg (not_lt.mpr h)]
    simp only [hS, hk]
    generalize Spec.innovVar st.f.P (sparse (Asp.hList st.f.P st.f.s R v 0)) R = S
    have hg : ∀ y : ℝ, sq y = y ^ 2 := fun y => (pow_two y).symm
    have hpos : R ≤ S → 0 < (max x.gate 1) ^ 2 * S := fun h => by
      have : (1 : ℝ) ≤ max x.gate 1 := le_max_right _ _
      have : 0 < (max x.gate 1) ^ 2 := by positivity
      exact mul_pos this (by linarith)
    refine ⟨?_, ?_, ?_⟩
    · intro h1; rw [if_pos h1]
    · intro h1 h2
      rw [if_neg (not_lt.mpr h1)]
      rw [if_pos]
      · simp only [hg]
      · show sq _ / _ > 1
        rw [gt_iff_lt, hg, hg, one_lt_div (hpos h1)]; exact h2
    · intro h1 h2
      rw [if_neg (not_lt.mpr h1)]
      rw [if_neg]
      · simp only [hg]
        split <;> simp_all
      · show ¬ sq _ / _ > 1
        rw [gt_iff_lt, hg, hg, one_lt_div (hpos h1), not_lt]; exact h2

/-- a flying state and a valid covariance satisfy the hypotheses: 10 m/s north, level, unit variances -/
def exState : Vec ℝ := fun i => if i = 0 then 1 else if i = 4 then 10 else 0

theorem exState_unit : (attQuat exState).normSq = 1 := by
  simp [attQuat, exState, Quat.normSq]

theorem idCov_psd : Spec.PSD (fun i j => if i = j then 1 else 0 : Mat ℝ) := psd_diag (d := fun _ => 1) (fun _ => zero_le_one)

/-- a filter with that state and an identity covariance -/
noncomputable def exFilt : Filt :=
  ⟨exState, ⟨fun i j => if i = j then 1 else 0, saveMagCov (fun _ _ => 0), true, false, false⟩, fun _ => 0, 0, false⟩

example : 1 ≤ Spec.airspeed exState := by
  have : Spec.airspeed exState = 10 := by
    unfold Spec.airspeed exState
    rw [show (10 : ℝ) = Real.sqrt (10 ^ 2) by rw [Real.sqrt_sq]; norm_num]
    congr 1; simp
  rw [this]; norm_num

/-- **C29 (valid covariance).** With a valid covariance the conditioning fault cannot occur, and every sample inside the
gate is fused. -/
theorem airspeed_always_fused (x : AspIn) (st : AspSt) (hP : Spec.PSD st.f.P) (hv : 1 ≤ Spec.airspeed st.f.s) :
    (fuseAirspeed x st).bad = false ∧
    ((fuseAirspeed x st).reject = false → (fuseAirspeed x st).lastFuse = x.now ∧ (fuseAirspeed x st).fuseAspd = true) ∧
    ((fuseAirspeed x st).reject = true → (fuseAirspeed x st).f = st.f ∧ (fuseAirspeed x st).lastFuse = st.lastFuse) := by
  obtain ⟨H, -, h1, h2, h3⟩ := (airspeed_fusion x st hP.symm).2 hv
  have hR0 : 0 < Spec.airspeedVar x.easNoise x.eas2tas := lt_of_lt_of_le (by norm_num) (airspeedVar_range _ _).1
  have hS := innovVar_ge hP H (Spec.airspeedVar x.easNoise x.eas2tas)
  rcases lt_or_ge ((max x.gate 1) ^ 2 * Spec.innovVar st.f.P H (Spec.airspeedVar x.easNoise x.eas2tas)) ((Spec.airspeed st.f.s - x.tas) ^ 2) with hg | hg
  · rw [h2 hS hg]; simp
  · rw [h3 hS hg]
    have := (update_applied x.fx H _ hR0 (fun i => x.windDR = true ∨ 22 ≤ i.val) (Spec.airspeed st.f.s - x.tas) st.f hP).1
    simp [this]

/-- **C29 (wind only).** Unless airspeed is the only aiding, only the wind states change, whatever happens. -/
theorem airspeed_wind_only (x : AspIn) (st : AspSt) (hs : ∀ i j, st.f.P i j = st.f.P j i) (hw : x.windDR = false)
    (hq : (attQuat st.f.s).normSq = 1) (i : Fin N) (hi : i.val < 22) : (fuseAirspeed x st).f.s i = st.f.s i := by
  rcases lt_or_ge (Spec.airspeed st.f.s) 1 with h0 | hv
  · rw [(airspeed_fusion x st hs).1 h0]
  obtain ⟨H, -, h1, h2, h3⟩ := (airspeed_fusion x st hs).2 hv
  have hi' : i ≠ 22 ∧ i ≠ 23 := by constructor <;> (intro h; subst h; revert hi; decide)
  rcases lt_or_ge (Spec.innovVar st.f.P H (Spec.airspeedVar x.easNoise x.eas2tas)) (Spec.airspeedVar x.easNoise x.eas2tas) with hS | hS
  · rw [h1 hS, hw]
    show resetWindStates x.wr st.f.s i = _
    unfold resetWindStates
    simp only [hi'.1, hi'.2, if_false]
  rcases lt_or_ge ((max x.gate 1) ^ 2 * Spec.innovVar st.f.P H (Spec.airspeedVar x.easNoise x.eas2tas)) ((Spec.airspeed st.f.s - x.tas) ^ 2) with hg | hg
  · rw [h2 hS hg]
  · rw [h3 hS hg]
    have hz : ∀ j : Fin N, j.val < 22 →
        Spec.gain st.f.P H (Spec.airspeedVar x.easNoise x.eas2tas) (fun i => x.windDR = true ∨ 22 ≤ i.val) j = 0 := by
      intro j hj
      unfold Spec.gain
      rw [if_neg]; rw [hw]; simp; omega
    exact update_zero_gain _ _ _ _ _ hq (fun j hj => hz j (by omega)) i (hz i hi)

end Ecl.Fusion
