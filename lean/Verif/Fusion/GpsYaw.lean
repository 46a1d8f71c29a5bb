import Verif.Fusion.GenGpsYaw
import Verif.Fusion.Airspeed
import Mathlib.Analysis.Real.Pi.Bounds

/-!
# GPS antenna heading fusion (C33) — EKF/gps_yaw_fusion.cpp
-/

set_option linter.unusedVariables false

namespace Ecl.Fusion

open Ecl.Cov
open scoped Matrix

noncomputable section

/-- state of the heading fusions -/
structure YawSt where
  f : Filt
  /-- `_fault_status.flags.bad_hdg` -/
  bad : Bool
  /-- `_innov_check_fail_status.flags.reject_yaw` -/
  reject : Bool
  /-- `_time_last_gps_yaw_fuse` -/
  lastGpsFuse : UInt64
  /-- `_heading_innov` -/
  innov : ℝ
  /-- `_heading_innov_var` -/
  innovVar : ℝ
  /-- `_yaw_test_ratio` -/
  testRatio : ℝ
  /-- `_mag_test_ratio` -/
  magTest : Fin 3 → ℝ

/-- inputs of `fuseGpsYaw` -/
structure GpsYawIn where
  /-- `_gps_sample_delayed.yaw` -/
  yaw : ℝ
  /-- `_gps_yaw_offset` -/
  off : ℝ
  /-- `_R_to_earth` -/
  Rte : M3 ℝ
  /-- `_params.mag_heading_noise` -/
  noise : ℝ
  /-- `_params.heading_innov_gate` -/
  gate : ℝ
  inAir : Bool
  now : UInt64
  fx : FixIn ℝ
  ini : InitIn

/-- `ant_vec_ef`, EKF/gps_yaw_fusion.cpp:61-62 -/
def antVecEf (R : M3 ℝ) (off : ℝ) : V3 ℝ := R *ᵥ ![Real.cos off, Real.sin off, 0]

/-- `fuseGpsYaw`, EKF/gps_yaw_fusion.cpp:49-195 -/
def fuseGpsYaw (x : GpsYawIn) (st : YawSt) : YawSt :=
  let measured := wrapPi (x.yaw + x.off)
  let ant := antVecEf x.Rte x.off
  if |ant 2| > Real.cos (30 * (Real.pi / 180)) then st else
  let predicted := atan2 (ant 1) (ant 0)
  let R := sq (max x.noise (1 / 100))
  let P := st.f.P
  let s := st.f.s
  let a := Real.sin x.off
  let b := Real.cos x.off
  if |GpsYaw.HK9 P s R a b| < 1 / 1000 then st else
  if |GpsYaw.HK17 P s R a b| < 1 / 1000 then st else
  if |GpsYaw.HK19_inverse P s R a b| < 1 / 1000000 then st else
  let S := GpsYaw.S P s R a b
  let st := { st with innovVar := S }
  if S < R then { st with f := initCov x.ini st.f, bad := true } else
  let st := { st with bad := false }
  let gate := mmax x.gate 1
  let innov := wrapPi (predicted - measured)
  let st := { st with innov := innov, testRatio := sq innov / (sq gate * S), magTest := fun _ => 0 }
  let H := sparse (GpsYaw.hList P s R a b)
  let k := GpsYaw.gain P s R a b
  let go (st : YawSt) : YawSt :=
    let r := update x.fx k H st.innov st.f
    let st := { st with f := r.1, bad := !r.2 }
    if r.2 then { st with lastGpsFuse := x.now } else st
  if st.testRatio > 1 then
    let st := { st with reject := true }
    if x.inAir then st
    else
      let lim := Real.sqrt (sq gate * S)
      go { st with innov := constrain st.innov (-lim) lim }
  else go { st with reject := false }

/-- earth-frame direction of the antenna baseline, mounted at angle `off` from the body x axis in the body x-y plane -/
def Spec.antenna (R : M3 ℝ) (off : ℝ) (i : Fin 3) : ℝ := R i 0 * Real.cos off + R i 1 * Real.sin off

/-- heading of the antenna baseline for the attitude quaternion of the state -/
def Spec.antHeading (off : ℝ) (s : Vec ℝ) : ℝ :=
  atan2 (Spec.antenna (attQuat s).dcm off 1) (Spec.antenna (attQuat s).dcm off 0)

/-- result of offering a heading innovation with row `H`, variance `R` and gate `g` to the filter when a failing innovation is
clamped to the gate (`clampOk`) or dropped (the reported innovation is then `rejInnov`) -/
def Spec.HeadingUpdate (fuse : ℝ → Filt × Bool) (S g innov : ℝ) (clampOk : Bool) (rejInnov : ℝ) (now : UInt64) (st st' : YawSt) : Prop :=
  st'.testRatio = innov ^ 2 / (g ^ 2 * S) ∧ st'.innovVar = S ∧ st'.magTest = (fun _ => 0) ∧
  (innov ^ 2 ≤ g ^ 2 * S →
    st'.reject = false ∧ st'.innov = innov ∧ st'.f = (fuse innov).1 ∧ st'.bad = !(fuse innov).2 ∧
    st'.lastGpsFuse = if (fuse innov).2 then now else st.lastGpsFuse) ∧
  (g ^ 2 * S < innov ^ 2 → st'.reject = true ∧
    (clampOk = false → st'.f = st.f ∧ st'.bad = false ∧ st'.lastGpsFuse = st.lastGpsFuse ∧ st'.innov = rejInnov) ∧
    (clampOk = true →
      let v := SignType.sign innov * (g * Real.sqrt S)
      st'.innov = v ∧ st'.f = (fuse v).1 ∧ st'.bad = !(fuse v).2 ∧
      st'.lastGpsFuse = if (fuse v).2 then now else st.lastGpsFuse))

end

theorem antVecEf_eq (R : M3 ℝ) (off : ℝ) : antVecEf R off = Spec.antenna R off := by
  funext i
  simp [antVecEf, Spec.antenna, Matrix.mulVec, dotProduct, Fin.sum_univ_three]

/-- clamping to the gate keeps the sign and takes the gate as size -/
theorem clamp_gate {v g S : ℝ} (hg : 1 ≤ g) (hS : 0 < S) (h : g ^ 2 * S < v ^ 2) :
    constrain v (-Real.sqrt (sq g * S)) (Real.sqrt (sq g * S)) = SignType.sign v * (g * Real.sqrt S) := by
  have e : Real.sqrt (sq g * S) = g * Real.sqrt S := by
    unfold sq; rw [← pow_two, Real.sqrt_mul (by positivity), Real.sqrt_sq (by linarith)]
  have hp : 0 < g * Real.sqrt S := mul_pos (by linarith) (Real.sqrt_pos.mpr hS)
  have hsq : (g * Real.sqrt S) ^ 2 < v ^ 2 := by rw [mul_pow, Real.sq_sqrt hS.le]; exact h
  rw [e]
  rcases lt_trichotomy v 0 with hv | hv | hv
  · rw [constrain_of_lt (by nlinarith), sign_neg hv]; simp
  · rw [hv] at hsq; nlinarith [sq_nonneg (g * Real.sqrt S)]
  · rw [constrain_of_gt (by nlinarith) (by nlinarith), sign_pos hv]; simp

/-- the decision tree after the innovation test -/
theorem heading_tail (F : ℝ → Filt × Bool) (S g v : ℝ) (hg : 1 ≤ g) (hS : 0 < S) (b : Bool) (now : UInt64) (st : YawSt) :
    Spec.HeadingUpdate F S g v (!b) v now st
      (if g ^ 2 * S < v ^ 2 then
        if b = true then
          { f := st.f, bad := false, reject := true, lastGpsFuse := st.lastGpsFuse, innov := v, innovVar := S,
            testRatio := v ^ 2 / (g ^ 2 * S), magTest := fun _ => 0 }
        else
          if (F (constrain v (-Real.sqrt (g ^ 2 * S)) (Real.sqrt (g ^ 2 * S)))).2 = true then
            { f := (F (constrain v (-Real.sqrt (g ^ 2 * S)) (Real.sqrt (g ^ 2 * S)))).1,
              bad := !(F (constrain v (-Real.sqrt (g ^ 2 * S)) (Real.sqrt (g ^ 2 * S)))).2, reject := true, lastGpsFuse := now,
              innov := constrain v (-Real.sqrt (g ^ 2 * S)) (Real.sqrt (g ^ 2 * S)), innovVar := S,
              testRatio := v ^ 2 / (g ^ 2 * S), magTest := fun _ => 0 }
          else
            { f := (F (constrain v (-Real.sqrt (g ^ 2 * S)) (Real.sqrt (g ^ 2 * S)))).1,
              bad := !(F (constrain v (-Real.sqrt (g ^ 2 * S)) (Real.sqrt (g ^ 2 * S)))).2, reject := true,
              lastGpsFuse := st.lastGpsFuse,
              innov := constrain v (-Real.sqrt (g ^ 2 * S)) (Real.sqrt (g ^ 2 * S)), innovVar := S,
              testRatio := v ^ 2 / (g ^ 2 * S), magTest := fun _ => 0 }
      else
        if (F v).2 = true then
          { f := (F v).1, bad := !(F v).2, reject := false, lastGpsFuse := now, innov := v, innovVar := S,
            testRatio := v ^ 2 / (g ^ 2 * S), magTest := fun _ => 0 }
        else
          { f := (F v).1, bad := !(F v).2, reject := false, lastGpsFuse := st.lastGpsFuse, innov := v, innovVar := S,
            testRatio := v ^ 2 / (g ^ 2 * S), magTest := fun _ => 0 }) := by
  rcases le_or_gt (v ^ 2) (g ^ 2 * S) with hv | hv
  · rw [if_neg (not_lt.mpr hv)]
    unfold Spec.HeadingUpdate
    cases h : (F v).2 <;> simp [h, not_lt.mpr hv]
  · rw [if_pos hv]
    have hc := clamp_gate hg hS hv
    rw [show sq g = g ^ 2 from (pow_two g).symm] at hc
    rw [hc]
    unfold Spec.HeadingUpdate
    cases b
    · cases h : (F (SignType.sign v * (g * Real.sqrt S))).2 <;> simp [h, not_le.mpr hv]
    · simp [not_le.mpr hv]

theorem antenna_north (s : Vec ℝ) (P : Mat ℝ) (R off : ℝ) :
    GpsYaw.HK9 P s R (Real.sin off) (Real.cos off) = -Spec.antenna (attQuat s).dcm off 0 := by
  simp only [GpsYaw.HK9, GpsYaw.HK8, GpsYaw.HK7, GpsYaw.HK6, GpsYaw.HK5, GpsYaw.HK4, GpsYaw.HK3, GpsYaw.HK2, GpsYaw.HK1, GpsYaw.HK0,
    Spec.antenna, attQuat, Quat.dcm]
  simp
  ring

/-- the GPS yaw observation row is the gradient of the antenna heading -/
theorem gpsYaw_gradient (s : Vec ℝ) (P : Mat ℝ) (R off : ℝ) (h0 : Spec.antenna (attQuat s).dcm off 0 ≠ 0)
    (h : 0 < Spec.antenna (attQuat s).dcm off 0 ∨ Spec.antenna (attQuat s).dcm off 1 ≠ 0) :
    Spec.IsGradient (Spec.antHeading off) s (sparse (GpsYaw.hList P s R (Real.sin off) (Real.cos off))) := by
  intro d
  rw [sum_sparse_mul]
  set a := Real.sin off
  set b := Real.cos off
  have hN : ∀ t : ℝ, Spec.antenna (attQuat fun j => s j + t * d j).dcm off 0 =
      ((s 0 + t * d 0) * (s 0 + t * d 0) + (s 1 + t * d 1) * (s 1 + t * d 1) - (s 2 + t * d 2) * (s 2 + t * d 2)
        - (s 3 + t * d 3) * (s 3 + t * d 3)) * b
      + 2 * ((s 1 + t * d 1) * (s 2 + t * d 2) - (s 0 + t * d 0) * (s 3 + t * d 3)) * a := by
    intro t; simp [Spec.antenna, attQuat, Quat.dcm, a, b]
  have hE : ∀ t : ℝ, Spec.antenna (attQuat fun j => s j + t * d j).dcm off 1 =
      2 * ((s 1 + t * d 1) * (s 2 + t * d 2) + (s 0 + t * d 0) * (s 3 + t * d 3)) * b
      + ((s 0 + t * d 0) * (s 0 + t * d 0) - (s 1 + t * d 1) * (s 1 + t * d 1) + (s 2 + t * d 2) * (s 2 + t * d 2)
        - (s 3 + t * d 3) * (s 3 + t * d 3)) * a := by
    intro t; simp [Spec.antenna, attQuat, Quat.dcm, a, b]
  have hs0 : (fun j => s j + (0 : ℝ) * d j) = s := by funext j; ring
  have hN0 := hN 0
  have hE0 := hE 0
  rw [hs0] at hN0 hE0
  have hf : HasDerivAt (fun t : ℝ => Spec.antenna (attQuat fun j => s j + t * d j).dcm off 0)
      (2 * (s 0 * d 0 + s 1 * d 1 - s 2 * d 2 - s 3 * d 3) * b + 2 * (s 1 * d 2 + s 2 * d 1 - s 0 * d 3 - s 3 * d 0) * a) 0 := by
    simp only [hN]; exact hasDerivAt_of_cubic fun t => by ring
  have hg : HasDerivAt (fun t : ℝ => Spec.antenna (attQuat fun j => s j + t * d j).dcm off 1)
      (2 * (s 1 * d 2 + s 2 * d 1 + s 0 * d 3 + s 3 * d 0) * b + 2 * (s 0 * d 0 - s 1 * d 1 + s 2 * d 2 - s 3 * d 3) * a) 0 := by
    simp only [hE]; exact hasDerivAt_of_cubic fun t => by ring
  have := hasDerivAt_atan2 hf hg (by rw [hs0]; exact h)
  refine this.congr_deriv ?_
  rw [hs0]
  have e9 : GpsYaw.HK9 P s R a b = -Spec.antenna (attQuat s).dcm off 0 := antenna_north s P R off
  have e19 : GpsYaw.HK19_inverse P s R a b = Spec.antenna (attQuat s).dcm off 0 := by
    have : GpsYaw.HK19_inverse P s R a b = -GpsYaw.HK9 P s R a b := by unfold GpsYaw.HK19_inverse GpsYaw.HK9; ring
    rw [this, e9, neg_neg]
  have e13 : GpsYaw.HK13 P s R a b = Spec.antenna (attQuat s).dcm off 1 := by
    rw [hE0]
    simp only [GpsYaw.HK13, GpsYaw.HK7, GpsYaw.HK6, GpsYaw.HK5, GpsYaw.HK4, GpsYaw.HK2, GpsYaw.HK1, GpsYaw.HK0]
    ring
  simp only [GpsYaw.hList, List.map_cons, List.map_nil, List.sum_cons, List.sum_nil, GpsYaw.HK18, GpsYaw.HK17, GpsYaw.HK16, GpsYaw.HK15,
    GpsYaw.HK14, GpsYaw.HK12, GpsYaw.HK11, GpsYaw.HK10, GpsYaw.HK19, GpsYaw.HK20, GpsYaw.HK21, GpsYaw.HK22, GpsYaw.HK23, GpsYaw.HK24,
    GpsYaw.HK25, GpsYaw.HK26, e9, e19, e13, GpsYaw.HK0, GpsYaw.HK4]
  set x := Spec.antenna (attQuat s).dcm off 0
  set y := Spec.antenna (attQuat s).dcm off 1
  have hn : x ^ 2 + y ^ 2 ≠ 0 := by positivity
  have hn' : y ^ 2 / (-x) ^ 2 + 1 ≠ 0 := by positivity
  have hx2 : (2 : ℝ) / (y ^ 2 / (-x) ^ 2 + 1) = 2 * x ^ 2 / (x ^ 2 + y ^ 2) := by
    rw [div_eq_div_iff hn' hn, neg_pow_two]; field_simp; ring
  rw [hx2]
  field_simp
  ring

/-- **C33 (GPS yaw).** GPS heading fusion does nothing while the antenna baseline (as rotated by the attitude matrix) is within 30
degrees of vertical or its north component (from the quaternion) is below 1e-3.  Otherwise the row is the gradient `H` of the
baseline heading, `S = H P Hᵀ + R` with `R = max(noise, 0.01)²`; a negative variance contribution reinitialises the covariance;
the innovation is the wrapped heading difference; a test failure drops the sample in the air and clamps it to the gate on the
ground. -/
theorem gpsYaw_fusion (x : GpsYawIn) (st : YawSt) (hs : ∀ i j, st.f.P i j = st.f.P j i)
    (hb : 0 < Spec.antenna (attQuat st.f.s).dcm x.off 0 ∨ Spec.antenna (attQuat st.f.s).dcm x.off 1 ≠ 0) :
    (Real.sqrt 3 / 2 < |Spec.antenna x.Rte x.off 2| → fuseGpsYaw x st = st) ∧
    (|Spec.antenna (attQuat st.f.s).dcm x.off 0| < 1 / 1000 → fuseGpsYaw x st = st) ∧
    (|Spec.antenna x.Rte x.off 2| ≤ Real.sqrt 3 / 2 → 1 / 1000 ≤ |Spec.antenna (attQuat st.f.s).dcm x.off 0| →
      ∃ H : Vec ℝ, Spec.IsGradient (Spec.antHeading x.off) st.f.s H ∧
        let R := max x.noise (1 / 100) ^ 2
        let S := Spec.innovVar st.f.P H R
        (S < R → fuseGpsYaw x st = { st with f := initCov x.ini st.f, bad := true, innovVar := S }) ∧
        (R ≤ S → Spec.HeadingUpdate (fun v => update x.fx (Spec.gain st.f.P H R (fun _ => True)) H v st.f) S (max x.gate 1)
          (wrapPi (atan2 (Spec.antenna x.Rte x.off 1) (Spec.antenna x.Rte x.off 0) - wrapPi (x.yaw + x.off)))
          (!x.inAir)
          (wrapPi (atan2 (Spec.antenna x.Rte x.off 1) (Spec.antenna x.Rte x.off 0) - wrapPi (x.yaw + x.off)))
          x.now st (fuseGpsYaw x st))) := by
  have h30 : Real.cos (30 * (Real.pi / 180)) = Real.sqrt 3 / 2 := by
    rw [show 30 * (Real.pi / 180) = Real.pi / 6 by ring, Real.cos_pi_div_six]
  have hsq : sq (max x.noise (1 / 100)) = max x.noise (1 / 100) ^ 2 := (pow_two _).symm
  unfold fuseGpsYaw
  simp only [h30, antVecEf_eq, antenna_north, abs_neg, hsq, gt_iff_lt]
  refine ⟨fun h => by rw [if_pos h], fun h => by rw [if_pos h]; exact ite_self _, ?_⟩
  intro h1 h2
  have hx0 : Spec.antenna (attQuat st.f.s).dcm x.off 0 ≠ 0 := by
    intro h0; rw [h0, abs_zero] at h2; norm_num at h2
  refine ⟨_, gpsYaw_gradient st.f.s st.f.P (max x.noise (1 / 100) ^ 2) x.off hx0 hb, ?_⟩
  rw [if_neg (not_lt.mpr h1), if_neg (not_lt.mpr h2)]
  have h17 : ¬ |GpsYaw.HK17 st.f.P st.f.s (max x.noise (1 / 100) ^ 2) (Real.sin x.off) (Real.cos x.off)| < 1 / 1000 := by
    unfold GpsYaw.HK17
    have : (0 : ℝ) ≤ GpsYaw.HK13 st.f.P st.f.s (max x.noise (1 / 100) ^ 2) (Real.sin x.off) (Real.cos x.off) ^ 2 /
      GpsYaw.HK9 st.f.P st.f.s (max x.noise (1 / 100) ^ 2) (Real.sin x.off) (Real.cos x.off) ^ 2 := by positivity
    rw [abs_of_nonneg (by linarith)]; linarith
  have h19 : ¬ |GpsYaw.HK19_inverse st.f.P st.f.s (max x.noise (1 / 100) ^ 2) (Real.sin x.off) (Real.cos x.off)| < 1 / 1000000 := by
    have e : GpsYaw.HK19_inverse st.f.P st.f.s (max x.noise (1 / 100) ^ 2) (Real.sin x.off) (Real.cos x.off)
        = -GpsYaw.HK9 st.f.P st.f.s (max x.noise (1 / 100) ^ 2) (Real.sin x.off) (Real.cos x.off) := by
      unfold GpsYaw.HK19_inverse GpsYaw.HK9; ring
    rw [e, antenna_north, neg_neg]; linarith
  rw [if_neg h17, if_neg h19]
  have hk : GpsYaw.gain st.f.P st.f.s (max x.noise (1 / 100) ^ 2) (Real.sin x.off) (Real.cos x.off)
      = Spec.gain st.f.P (sparse (GpsYaw.hList st.f.P st.f.s (max x.noise (1 / 100) ^ 2) (Real.sin x.off) (Real.cos x.off)))
        (max x.noise (1 / 100) ^ 2) (fun _ => True) := by
    funext i; rw [GpsYaw.gain_eq _ _ _ _ _ hs]; rfl
  simp only [GpsYaw.S_eq _ _ _ _ _ hs, hk, mmax_eq]
  constructor
  · intro h; rw [if_pos h]
  · intro h
    rw [if_neg (not_lt.mpr h)]
    set H := sparse (GpsYaw.hList st.f.P st.f.s (max x.noise (1 / 100) ^ 2) (Real.sin x.off) (Real.cos x.off))
    set S := Spec.innovVar st.f.P H (max x.noise (1 / 100) ^ 2)
    have hR : 0 < max x.noise (1 / 100) ^ 2 := pow_pos (lt_of_lt_of_le (by norm_num) (le_max_right _ _)) 2
    have hS : 0 < S := lt_of_lt_of_le hR h
    have hg : 1 ≤ max x.gate 1 := le_max_right _ _
    set g := max x.gate 1
    have hsg : ∀ y : ℝ, sq y = y ^ 2 := fun y => (pow_two y).symm
    have hgS : 0 < g ^ 2 * S := mul_pos (by positivity) hS
    generalize wrapPi (atan2 _ _ - _) = v
    simp only [hsg, one_lt_div hgS]
    exact heading_tail (fun v => update x.fx (Spec.gain st.f.P H (max x.noise (1 / 100) ^ 2) fun x => True) H v st.f) S g v hg hS
      x.inAir x.now st

/-- **C33 (negative part).** A level vehicle pointing due east (or west) has a perfectly observable antenna heading, yet every
GPS heading sample is ignored there. -/
theorem gpsYaw_blind_east : ∃ q : Quat ℝ, q.normSq = 1 ∧ Spec.antenna q.dcm 0 1 = 1 ∧
    ∀ (x : GpsYawIn) (st : YawSt), x.off = 0 → attQuat st.f.s = q → fuseGpsYaw x st = st := by
  have h2 : Real.sqrt 2 * Real.sqrt 2 = 2 := Real.mul_self_sqrt (by norm_num)
  refine ⟨⟨Real.sqrt 2 / 2, 0, 0, Real.sqrt 2 / 2⟩, ?_, ?_, ?_⟩
  · unfold Quat.normSq; simp only; nlinarith
  · unfold Spec.antenna Quat.dcm
    simp only [Real.cos_zero, Real.sin_zero, Matrix.of_apply, Matrix.cons_val_one, Matrix.cons_val_zero]
    nlinarith
  · intro x st hx hq
    unfold fuseGpsYaw
    simp only
    split
    · rfl
    · rw [if_pos]
      rw [antenna_north, hx, hq]
      simp [Spec.antenna, Quat.dcm]

/-- an attitude meeting the hypotheses: level, pointing north -/
example : ∃ st : YawSt, (∀ i j, st.f.P i j = st.f.P j i) ∧ 0 < Spec.antenna (attQuat st.f.s).dcm 0 0 ∧
    1 / 1000 ≤ |Spec.antenna (attQuat st.f.s).dcm 0 0| ∧ |Spec.antenna (attQuat st.f.s).dcm 0 2| ≤ Real.sqrt 3 / 2 := by
  refine ⟨⟨exFilt, false, false, 0, 0, 0, 0, 0⟩, idCov_psd.symm, ?_, ?_, ?_⟩ <;>
  simp [Spec.antenna, attQuat, exFilt, exState, Quat.dcm] <;> first | positivity | norm_num

end Ecl.Fusion
