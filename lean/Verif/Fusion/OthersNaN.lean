import Verif.Fusion.VelPosNaN
import Verif.Basic.RealTrig

/-!
# NaN measurements of the other sensors and what they leave behind (C174)

EKF/airspeed_fusion.cpp, sideslip_fusion.cpp, mag_fusion.cpp, optflow_fusion.cpp, gps_yaw_fusion.cpp, drag_fusion.cpp, terrain_estimator.cpp, EKF/ekf.cpp:257-293,
EKF/ekf_helper.cpp:550-566, 983-994, 1549-1566.  Floats as in `Verif/Fusion/VelPosNaN`: a real or NaN, arithmetic exact, infinities not modelled.
-/

namespace Ecl.Fusion.NaN

open Ecl.Cov Ecl.Fusion

noncomputable section

/-- `sq(innov) / (sq(gate) * innov_var)`, e.g. EKF/airspeed_fusion.cpp:144 -/
def ratio (i g v : NF) : NF := div (mul i i) (mul (mul g g) v)

/-- `fuseAirspeed`: innovation with which the states are corrected, if they are, EKF/airspeed_fusion.cpp:68-71 (speed), 90-110 (conditioning), 141-161; the covariance health
check of `measurementUpdate` does not look at the innovation and is taken as passed -/
def airspeedFused (pred meas gate r v : NF) : Option NF := open Classical in
  if gt (some 1) pred then none
  else if gt r v then none
  else if gt (ratio (sub pred meas) (fmax gate (some 1)) v) (some 1) then none
  else some (sub pred meas)

/-- `fuseSideslip`, EKF/sideslip_fusion.cpp:69 (speed), 137-154 (conditioning), 159-172; `speed` is the norm of the relative wind `(w0, w1, w2)` in body axes -/
def sideslipFused (speed w0 w1 gate r v : NF) : Option NF := open Classical in
  if ¬ gt speed (some 7) then none
  else if gt r v then none
  else if gt (ratio (div w1 w0) (fmax gate (some 1)) v) (some 1) then none
  else some (div w1 w0)

/-- `fuseMag`: innovations of the three axes if fused, EKF/mag_fusion.cpp:162-193 (the conditioning of the variances, lines 80-150, is taken as passed) -/
def magFused (pred meas : Fin 3 → NF) (gate : NF) (v : Fin 3 → NF) (synthZ : Bool) : Option (Fin 3 → NF) := open Classical in
  let innov : Fin 3 → NF := fun i => if i = 2 ∧ synthZ = true then some 0 else sub (pred i) (meas i)
  if ∃ i, gt (ratio (innov i) (fmax gate (some 1)) (v i)) (some 1) then none else some innov

/-- `updateQuaternion`: heading innovation with which the states are corrected, EKF/mag_fusion.cpp:600-616, 637-661; `grounded`: not in air for 5 s -/
def headingFused (innov gate r v : NF) (grounded : Bool) : Option NF := open Classical in
  if ¬ le r v then none
  else if gt (ratio innov gate v) (some 1) then
    (if grounded then some (constr innov (sub (some 0) (sqrt (mul (mul gate gate) v))) (sqrt (mul (mul gate gate) v))) else none)
  else some innov

/-- `fuseGpsYaw`, EKF/gps_yaw_fusion.cpp:125-170; the innovation is `wrap_pi` of the difference, NaN if that is -/
def gpsYawFused (innov gate r v : NF) (inAir : Bool) : Option NF := open Classical in
  if gt r v then none
  else if gt (ratio innov (fmax gate (some 1)) v) (some 1) then
    (if inAir then none else
      some (constr innov (sub (some 0) (sqrt (mul (mul (fmax gate (some 1)) (fmax gate (some 1))) v)))
        (sqrt (mul (mul (fmax gate (some 1)) (fmax gate (some 1))) v))))
  else some innov

/-- `fuseOptFlow`: innovations of the two axes if fused, EKF/optflow_fusion.cpp:238-263 -/
def flowFused (i0 i1 gate r v0 v1 : NF) : Option (NF × NF) := open Classical in
  if gt r v0 ∨ gt r v1 then none
  else if gt (ratio i0 (fmax gate (some 1)) v0) (some 1) ∨ gt (ratio i1 (fmax gate (some 1)) v1) (some 1) then none
  else some (i0, i1)

/-- `fuseDrag`, one axis, EKF/drag_fusion.cpp:262-268 -/
def dragFused (innov v : NF) : Option NF := open Classical in
  if le (div (mul innov innov) (mul (some 25) v)) (some 1) then some innov else none

/-- `fuseHagl`, EKF/terrain_estimator.cpp:152-156 -/
def rangeFused (innov gate v : NF) : Option NF := open Classical in
  if le (ratio innov (fmax gate (some 1)) v) (some 1) then some innov else none

/-! ### The life of the state vector -/

/-- `Dcm(q)` of the matrix library (not in the repository), used at EKF/ekf.cpp:270: entries are sums of products of quaternion components -/
def dcm (q : Fin 4 → NF) : Fin 3 → Fin 3 → NF :=
  let a := mul (q 0) (q 0); let b := mul (q 1) (q 1); let c := mul (q 2) (q 2); let d := mul (q 3) (q 3)
  let dbl (x y : NF) : NF := mul (some 2) (add x y)
  ![![sub (sub (add a b) c) d, dbl (mul (q 1) (q 2)) (sub (some 0) (mul (q 0) (q 3))), dbl (mul (q 0) (q 2)) (mul (q 1) (q 3))],
    ![dbl (mul (q 1) (q 2)) (mul (q 0) (q 3)), sub (add (sub a b) c) d, dbl (mul (q 2) (q 3)) (sub (some 0) (mul (q 0) (q 1)))],
    ![dbl (mul (q 1) (q 3)) (sub (some 0) (mul (q 0) (q 2))), dbl (mul (q 0) (q 1)) (mul (q 2) (q 3)), add (sub (sub a b) c) d]]

/-- product of quaternions, matrix library -/
def qmul (p q : Fin 4 → NF) : Fin 4 → NF :=
  ![sub (sub (sub (mul (p 0) (q 0)) (mul (p 1) (q 1))) (mul (p 2) (q 2))) (mul (p 3) (q 3)),
    add (sub (add (mul (p 0) (q 1)) (mul (p 1) (q 0))) (mul (p 3) (q 2))) (mul (p 2) (q 3)),
    add (sub (add (mul (p 0) (q 2)) (mul (p 2) (q 0))) (mul (p 1) (q 3))) (mul (p 3) (q 1)),
    add (sub (add (mul (p 0) (q 3)) (mul (p 3) (q 0))) (mul (p 2) (q 1))) (mul (p 1) (q 2))]

/-- `normalized()`, matrix library -/
def qnorm (q : Fin 4 → NF) : Fin 4 → NF :=
  let n := sqrt (add (add (mul (q 0) (q 0)) (mul (q 1) (q 1))) (add (mul (q 2) (q 2)) (mul (q 3) (q 3))))
  fun i => div (q i) n

/-- the attitude in the state vector -/
def quat (s : Fin N → NF) : Fin 4 → NF := fun i => s ⟨i.val, by have := i.2; unfold N; omega⟩
/-- a three-vector in the state vector, from index `k` -/
def vec3 (s : Fin N → NF) (k : ℕ) (h : k + 3 ≤ N) : Fin 3 → NF := fun i => s ⟨k + i.val, by have := i.2; omega⟩

/-- `predictState`, EKF/ekf.cpp:257-291: `dq` the rotation during the sample (lines 260-265), `dv` the sampled velocity change, `dt` its interval, `g` gravity -/
def predict (dq : Fin 4 → NF) (dv : Fin 3 → NF) (dt g : NF) (s : Fin N → NF) : Fin N → NF :=
  let q := qnorm (qmul (quat s) dq)
  let R := dcm q
  let bias := vec3 s 13 (by decide)
  let a : Fin 3 → NF := fun j => sub (dv j) (bias j)
  let ef : Fin 3 → NF := fun i => add (add (mul (R i 0) (a 0)) (mul (R i 1) (a 1))) (mul (R i 2) (a 2))
  let v := vec3 s 4 (by decide)
  let p := vec3 s 7 (by decide)
  let v' : Fin 3 → NF := fun i => if i = 2 then add (add (v i) (ef i)) (mul g dt) else add (v i) (ef i)
  let p' : Fin 3 → NF := fun i => add (p i) (mul (mul (add (v i) (v' i)) dt) (some (1 / 2)))
  fun i => if h : i.val < 4 then q ⟨i.val, h⟩
    else if h : i.val < 7 then v' ⟨i.val - 4, by omega⟩
    else if h : i.val < 10 then p' ⟨i.val - 7, by omega⟩
    else s i

/-- `constrainStates`, EKF/ekf_helper.cpp:550-566, with any limits -/
def limitStates (lo hi : Fin N → NF) (s : Fin N → NF) : Fin N → NF := fun i => constr (s i) (lo i) (hi i)

/-- a function of the C library applied to floats: NaN on NaN -/
def fun1 (f : ℝ → ℝ) : NF → NF | some a => some (f a) | none => none
/-- the same with two arguments -/
def fun2 (f : ℝ → ℝ → ℝ) : NF → NF → NF | some a, some b => some (f a b) | _, _ => none

/-- `taitBryan312ToRotMat`, EKF/utils.cpp:3-25: yaw, roll, pitch -/
def rot312 (y r p : NF) : Fin 3 → Fin 3 → NF :=
  let c2 := fun1 Real.cos p; let s2 := fun1 Real.sin p; let s1 := fun1 Real.sin r; let c1 := fun1 Real.cos r
  let s0 := fun1 Real.sin y; let c0 := fun1 Real.cos y
  let neg (x : NF) : NF := sub (some 0) x
  ![![sub (mul c0 c2) (mul (mul s0 s1) s2), mul (neg c1) s0, add (mul s2 c0) (mul (mul c2 s1) s0)],
    ![add (mul c2 s0) (mul (mul s2 s1) c0), mul c0 c1, sub (mul s0 s2) (mul (mul s1 c0) c2)],
    ![mul (neg s2) c1, s1, mul c2 c1]]

/-- `updateEuler321YawInRotMat`, EKF/utils.cpp:90-94, with the Euler angles and the rotation matrix of the matrix library: yaw `y`, roll `r`, pitch `p` -/
def rot321 (y r p : NF) : Fin 3 → Fin 3 → NF :=
  let cp := fun1 Real.cos r; let sp := fun1 Real.sin r; let ct := fun1 Real.cos p; let st := fun1 Real.sin p
  let cs := fun1 Real.cos y; let ss := fun1 Real.sin y
  let neg (x : NF) : NF := sub (some 0) x
  ![![mul ct cs, add (mul (neg cp) ss) (mul (mul sp st) cs), add (mul sp ss) (mul (mul cp st) cs)],
    ![mul ct ss, add (mul cp cs) (mul (mul sp st) ss), add (mul (neg sp) cs) (mul (mul cp st) ss)],
    ![neg st, mul sp ct, mul cp ct]]

/-- `updateYawInRotMat`, EKF/utils.cpp:62-64, 90-107 -/
def setYaw (y : NF) (R : Fin 3 → Fin 3 → NF) : Fin 3 → Fin 3 → NF := open Classical in
  if gt (fun1 abs (R 2 1)) (fun1 abs (R 2 0)) then
    rot321 y (fun2 atan2 (R 2 1) (R 2 2)) (fun1 Real.arcsin (sub (some 0) (R 2 0)))
  else rot312 y (fun1 Real.arcsin (R 2 1)) (fun2 atan2 (sub (some 0) (R 2 0)) (R 2 2))

/-- `Quaternion(Dcm)` of the matrix library -/
def quatOf (R : Fin 3 → Fin 3 → NF) : Fin 4 → NF := open Classical in
  let t := add (add (R 0 0) (R 1 1)) (R 2 2)
  let half (x : NF) : NF := mul (some (1 / 2)) x
  if gt t (some 0) then
    let n := sqrt (add (some 1) t)
    let k := div (some (1 / 2)) n
    ![half n, mul (sub (R 2 1) (R 1 2)) k, mul (sub (R 0 2) (R 2 0)) k, mul (sub (R 1 0) (R 0 1)) k]
  else if gt (R 0 0) (R 1 1) ∧ gt (R 0 0) (R 2 2) then
    let n := sqrt (sub (sub (add (some 1) (R 0 0)) (R 1 1)) (R 2 2))
    let k := div (some (1 / 2)) n
    ![mul (sub (R 2 1) (R 1 2)) k, half n, mul (add (R 1 0) (R 0 1)) k, mul (add (R 0 2) (R 2 0)) k]
  else if gt (R 1 1) (R 2 2) then
    let n := sqrt (sub (sub (add (some 1) (R 1 1)) (R 0 0)) (R 2 2))
    let k := div (some (1 / 2)) n
    ![mul (sub (R 0 2) (R 2 0)) k, mul (add (R 1 0) (R 0 1)) k, half n, mul (add (R 2 1) (R 1 2)) k]
  else
    let n := sqrt (sub (sub (add (some 1) (R 2 2)) (R 0 0)) (R 1 1))
    let k := div (some (1 / 2)) n
    ![mul (sub (R 1 0) (R 0 1)) k, mul (add (R 0 2) (R 2 0)) k, mul (add (R 2 1) (R 1 2)) k, half n]

/-- state part of `resetQuatStateYaw`, EKF/ekf_helper.cpp:1549-1566 -/
def yawReset (y : NF) (s : Fin N → NF) : Fin N → NF :=
  fun i => if h : i.val < 4 then quatOf (setYaw y (dcm (quat s))) ⟨i.val, h⟩ else s i

/-- what can happen to the state vector between two initialisations of the filter -/
inductive Ev where
  /-- a prediction followed by the state limits -/
  | predict (dq : Fin 4 → NF) (dv : Fin 3 → NF) (dt g : NF) (lo hi : Fin N → NF)
  /-- a measurement update with any gains and innovation -/
  | update (k : Fin N → NF) (innov : NF)
  /-- velocity, position, bias, field and wind resets: states after the attitude get any values -/
  | assign (v : Fin N → NF)
  /-- a reset of the heading to any value -/
  | yaw (y : NF)

/-- the state vector after an event -/
def Ev.apply : Ev → (Fin N → NF) → (Fin N → NF)
  | .predict dq dv dt g lo hi, s => limitStates lo hi (NaN.predict dq dv dt g s)
  | .update k innov, s => fuse s k innov
  | .assign v, s => fun i => if i.val < 4 then s i else v i
  | .yaw y, s => yawReset y s

/-- the state vector after a history -/
def life (s : Fin N → NF) (es : List Ev) : Fin N → NF := es.foldl (fun s e => e.apply s) s

end

/-! ### Which sensors let NaN through -/

theorem fmax_one (g : ℝ) : fmax (some g) (some 1) = some (max g 1) := rfl

theorem gt_ratio_nan (g v x : NF) : ¬ gt (ratio none g v) x := by
  unfold ratio; cases g <;> cases v <;> simp [mul, div, gt]

/-- **C174 (accepted).** Airspeed, sideslip, magnetometer, heading, antenna heading and optical flow: a NaN measurement passes the innovation test, which rejects only what is greater than
one, and its NaN innovation is used to correct the states.  For sensors with several axes this holds if the other axes are within their gates. -/
theorem nan_accepted (gate r v : ℝ) (hr : r ≤ v) :
    (∀ pred : ℝ, 1 ≤ pred → airspeedFused (some pred) none (some gate) (some r) (some v) = some none) ∧
    (∀ speed w0 w1 : NF, gt speed (some 7) → (w0 = none ∨ w1 = none) → sideslipFused speed w0 w1 (some gate) (some r) (some v) = some none) ∧
    (∀ grounded, headingFused none (some gate) (some r) (some v) grounded = some none) ∧
    (∀ inAir, gpsYawFused none (some gate) (some r) (some v) inAir = some none) ∧
    (∀ i v1 : ℝ, r ≤ v1 → 0 < v1 → i ^ 2 ≤ (max gate 1) ^ 2 * v1 →
      flowFused none (some i) (some gate) (some r) (some v) (some v1) = some (none, some i) ∧
      flowFused (some i) none (some gate) (some r) (some v1) (some v) = some (some i, none)) := by
  have hrv : ¬ gt (some r) (some v) := by show ¬ r > v; linarith
  refine ⟨fun pred hp => ?_, fun speed w0 w1 hs hw => ?_, fun gr => ?_, fun ia => ?_, fun i v1 h1 hv1 hi => ?_⟩
  · unfold airspeedFused
    rw [if_neg (by show ¬ (1 : ℝ) > pred; linarith), if_neg hrv, show sub (some pred) none = none from rfl, if_neg (gt_ratio_nan _ _ _)]
  · have hd : div w1 w0 = none := by rcases hw with h | h <;> rw [h] <;> [cases w1; cases w0] <;> rfl
    unfold sideslipFused
    rw [if_neg (not_not.2 hs), if_neg hrv, hd, if_neg (gt_ratio_nan _ _ _)]
  · unfold headingFused
    rw [if_neg (not_not.2 (show le (some r) (some v) from hr)), if_neg (gt_ratio_nan _ _ _)]
  · unfold gpsYawFused
    rw [if_neg hrv, if_neg (gt_ratio_nan _ _ _)]
  · have hrv1 : ¬ gt (some r) (some v1) := by show ¬ r > v1; linarith
    have hm : 0 < max gate 1 := lt_of_lt_of_le one_pos (le_max_right _ _)
    have hq : ¬ gt (ratio (some i) (fmax (some gate) (some 1)) (some v1)) (some 1) := by
      show ¬ (i * i / (max gate 1 * max gate 1 * v1) > 1)
      rw [not_lt, div_le_one (by positivity)]
      nlinarith
    unfold flowFused
    constructor
    · rw [if_neg (by rintro (h | h); exacts [hrv h, hrv1 h]), if_neg (by rintro (h | h); exacts [gt_ratio_nan _ _ _ h, hq h])]
    · rw [if_neg (by rintro (h | h); exacts [hrv1 h, hrv h]), if_neg (by rintro (h | h); exacts [hq h, gt_ratio_nan _ _ _ h])]

/-- **C174 (accepted, magnetometer).** Whatever axes are NaN: the sample is used if the other axes are within their gates; only a NaN z axis that is replaced by a synthetic one does no
harm. -/
theorem nan_mag_accepted (pred : Fin 3 → ℝ) (meas : Fin 3 → NF) (gate : ℝ) (v : Fin 3 → ℝ) (synthZ : Bool)
    (hv : ∀ i, 0 < v i) (hok : ∀ i m, meas i = some m → ¬ (i = 2 ∧ synthZ = true) → (pred i - m) ^ 2 ≤ (max gate 1) ^ 2 * v i) :
    ∃ innov, magFused (fun i => some (pred i)) meas (some gate) (fun i => some (v i)) synthZ = some innov ∧
      (∀ i, meas i = none → ¬ (i = 2 ∧ synthZ = true) → innov i = none) := by
  have hm : 0 < max gate 1 := lt_of_lt_of_le one_pos (le_max_right _ _)
  unfold magFused
  dsimp only
  rw [if_neg]
  · refine ⟨_, rfl, fun i hi hz => ?_⟩
    rw [if_neg hz, hi]
    rfl
  · rintro ⟨i, hi⟩
    by_cases hz : i = 2 ∧ synthZ = true
    · rw [if_pos hz] at hi
      have : (0 : ℝ) * 0 / (max gate 1 * max gate 1 * v i) > 1 := hi
      simp only [mul_zero, zero_div] at this
      linarith
    · rw [if_neg hz] at hi
      cases h : meas i with
      | none => rw [h] at hi; exact gt_ratio_nan _ _ _ hi
      | some m =>
        rw [h] at hi
        have h1 : (pred i - m) * (pred i - m) / (max gate 1 * max gate 1 * v i) > 1 := hi
        have h2 := hok i m h hz
        have := hv i
        rw [gt_iff_lt, one_lt_div (by positivity)] at h1
        nlinarith

/-- **C174 (rejected).** Drag and range measurements must be at most one to be used: NaN is rejected, whatever gate and variance. -/
theorem nan_rejected (gate v : NF) : dragFused none v = none ∧ rangeFused none gate v = none := by
  constructor
  · unfold dragFused; rw [if_neg]; cases v <;> simp [mul, div, le]
  · unfold rangeFused ratio; rw [if_neg]; cases gate <;> cases v <;> simp [mul, div, le, fmax]

/-- On numbers the gates mean what they should: accepted exactly within `gate` standard deviations. -/
theorem finite_gates (gate r v : ℝ) (hv : 0 < v) (hr : r ≤ v) :
    (∀ pred meas : ℝ, 1 ≤ pred → (airspeedFused (some pred) (some meas) (some gate) (some r) (some v) = some (some (pred - meas)) ↔
      (pred - meas) ^ 2 ≤ (max gate 1) ^ 2 * v)) ∧
    (∀ i : ℝ, rangeFused (some i) (some gate) (some v) = some (some i) ↔ i ^ 2 ≤ (max gate 1) ^ 2 * v) ∧
    (∀ i : ℝ, dragFused (some i) (some v) = some (some i) ↔ i ^ 2 ≤ 5 ^ 2 * v) := by
  have hm : 0 < max gate 1 := lt_of_lt_of_le one_pos (le_max_right _ _)
  refine ⟨fun pred meas hp => ?_, fun i => ?_, fun i => ?_⟩
  · unfold airspeedFused
    rw [if_neg (by show ¬ (1 : ℝ) > pred; linarith), if_neg (by show ¬ r > v; linarith)]
    by_cases h : gt (ratio (sub (some pred) (some meas)) (fmax (some gate) (some 1)) (some v)) (some 1)
    · rw [if_pos h]
      have h1 : (pred - meas) * (pred - meas) / (max gate 1 * max gate 1 * v) > 1 := h
      rw [gt_iff_lt, one_lt_div (by positivity)] at h1
      constructor
      · intro c; cases c
      · intro c; nlinarith
    · rw [if_neg h]
      have h1 : ¬ ((pred - meas) * (pred - meas) / (max gate 1 * max gate 1 * v) > 1) := h
      rw [not_lt, div_le_one (by positivity)] at h1
      exact ⟨fun _ => by nlinarith, fun _ => rfl⟩
  · unfold rangeFused
    have e : le (ratio (some i) (fmax (some gate) (some 1)) (some v)) (some 1) ↔ i ^ 2 ≤ (max gate 1) ^ 2 * v := by
      show i * i / (max gate 1 * max gate 1 * v) ≤ 1 ↔ _
      rw [div_le_one (by positivity), pow_two, pow_two]
    by_cases h : le (ratio (some i) (fmax (some gate) (some 1)) (some v)) (some 1)
    · rw [if_pos h]; exact ⟨fun _ => e.1 h, fun _ => rfl⟩
    · rw [if_neg h]; exact ⟨fun c => (by cases c), fun c => absurd (e.2 c) h⟩
  · unfold dragFused
    have e : le (div (mul (some i) (some i)) (mul (some 25) (some v))) (some 1) ↔ i ^ 2 ≤ 5 ^ 2 * v := by
      show i * i / (25 * v) ≤ 1 ↔ _
      rw [div_le_one (by positivity), pow_two]
      constructor <;> intro h <;> linarith
    by_cases h : le (div (mul (some i) (some i)) (mul (some 25) (some v))) (some 1)
    · rw [if_pos h]; exact ⟨fun _ => e.1 h, fun _ => rfl⟩
    · rw [if_neg h]; exact ⟨fun c => (by cases c), fun c => absurd (e.2 c) h⟩

/-! ### What is left behind -/

@[simp] theorem add_nan_l (a : NF) : add none a = none := by cases a <;> rfl
@[simp] theorem add_nan_r (a : NF) : add a none = none := by cases a <;> rfl
@[simp] theorem sub_nan_l (a : NF) : sub none a = none := by cases a <;> rfl
@[simp] theorem sub_nan_r (a : NF) : sub a none = none := by cases a <;> rfl
@[simp] theorem mul_nan_l (a : NF) : mul none a = none := by cases a <;> rfl
@[simp] theorem mul_nan_r (a : NF) : mul a none = none := by cases a <;> rfl
@[simp] theorem div_nan_l (a : NF) : div none a = none := by cases a <;> rfl
@[simp] theorem div_nan_r (a : NF) : div a none = none := by cases a <;> rfl
@[simp] theorem sqrt_nan : sqrt none = none := rfl
@[simp] theorem fun1_nan (f : ℝ → ℝ) : fun1 f none = none := rfl
@[simp] theorem fun2_nan_l (f : ℝ → ℝ → ℝ) (a : NF) : fun2 f none a = none := by cases a <;> rfl
@[simp] theorem gt_nan_l (a : NF) : ¬ gt none a := by cases a <;> simp [gt]
@[simp] theorem gt_nan_r (a : NF) : ¬ gt a none := by cases a <;> simp [gt]

@[simp] theorem constr_nan (lo hi : NF) : constr none lo hi = none := by
  unfold constr; rw [if_neg (gt_nan_r _), if_neg (gt_nan_l _)]

theorem dcm_nan (q : Fin 4 → NF) (h : ∀ i, q i = none) (i j : Fin 3) : dcm q i j = none := by
  unfold dcm
  fin_cases i <;> fin_cases j <;> simp [h]

theorem setYaw_nan (y : NF) (R : Fin 3 → Fin 3 → NF) (h : ∀ i j, R i j = none) (i j : Fin 3) : setYaw y R i j = none := by
  unfold setYaw
  rw [if_neg (by simp [h])]
  unfold rot312
  fin_cases i <;> fin_cases j <;> simp [h]

theorem quatOf_nan (R : Fin 3 → Fin 3 → NF) (h : ∀ i j, R i j = none) (i : Fin 4) : quatOf R i = none := by
  unfold quatOf
  dsimp only
  rw [if_neg (by simp [h]), if_neg (by simp [h]), if_neg (by simp [h])]
  fin_cases i <;> simp [h]

/-- the attitude is lost -/
def Spec.AttitudeLost (s : Fin N → NF) : Prop := ∀ i : Fin N, i.val < 4 → s i = none

theorem lost_quat (s : Fin N → NF) (h : Spec.AttitudeLost s) (i : Fin 4) : quat s i = none := h _ i.2

theorem lost_qnew (s : Fin N → NF) (h : Spec.AttitudeLost s) (dq : Fin 4 → NF) (i : Fin 4) : qnorm (qmul (quat s) dq) i = none := by
  have hq : ∀ i, qmul (quat s) dq i = none := by
    intro i
    unfold qmul
    fin_cases i <;> simp [lost_quat s h]
  unfold qnorm
  simp [hq]

/-- a prediction from a lost attitude loses velocity and position as well -/
theorem predict_lost (s : Fin N → NF) (h : Spec.AttitudeLost s) (dq : Fin 4 → NF) (dv : Fin 3 → NF) (dt g : NF) (i : Fin N) (hi : i.val < 10) :
    NaN.predict dq dv dt g s i = none := by
  have hR : ∀ a b, dcm (qnorm (qmul (quat s) dq)) a b = none := dcm_nan _ (lost_qnew s h dq)
  unfold NaN.predict
  dsimp only
  split_ifs with h1 h2 h3 h4
  · exact lost_qnew s h dq _
  all_goals simp [hR]

theorem lost_apply (e : Ev) (s : Fin N → NF) (h : Spec.AttitudeLost s) : Spec.AttitudeLost (e.apply s) := by
  intro i hi
  cases e with
  | predict dq dv dt g lo hi' =>
    show constr _ _ _ = none
    rw [predict_lost s h dq dv dt g i (by omega)]
    exact constr_nan _ _
  | update k innov =>
    show fuse s k innov i = none
    unfold fuse
    rw [if_pos hi]
    have : fuseLin s k innov i = none := by unfold fuseLin; rw [h i hi]; simp
    rw [this]; simp
  | assign v =>
    show (if i.val < 4 then s i else v i) = none
    rw [if_pos hi]; exact h i hi
  | yaw y =>
    show yawReset y s i = none
    unfold yawReset
    rw [dif_pos hi]
    exact quatOf_nan _ (setYaw_nan _ _ (dcm_nan _ (lost_quat s h))) _

/-- **C174 (no recovery).** Once the attitude is NaN it stays NaN through every history of predictions, measurement updates, resets of velocity, position, biases, fields and wind, and heading
resets; only initialising the filter anew ends it. -/
theorem attitude_lost_forever (s : Fin N → NF) (h : Spec.AttitudeLost s) (es : List Ev) : Spec.AttitudeLost (life s es) := by
  induction es generalizing s with
  | nil => exact h
  | cons e es ih => exact ih _ (lost_apply e s h)

/-- **C174 (one sample).** One accepted NaN innovation, whatever the gains (zero for all but the wind states included) and the state before, and then any history that ends with a prediction:
attitude, velocity and position are NaN, also if velocity and position were reset to good values just before. -/
theorem one_nan_sample (s k : Fin N → NF) (es : List Ev) (dq : Fin 4 → NF) (dv : Fin 3 → NF) (dt g : NF) (lo hi : Fin N → NF) (i : Fin N) (h : i.val < 10) :
    life s (.update k none :: es ++ [.predict dq dv dt g lo hi]) i = none := by
  have h0 : Spec.AttitudeLost ((Ev.update k none).apply s) := fun i _ => nan_fusion_destroys_state s k i
  have h1 := attitude_lost_forever _ h0 es
  have e : life s (.update k none :: es ++ [.predict dq dv dt g lo hi]) =
      limitStates lo hi (NaN.predict dq dv dt g (life ((Ev.update k none).apply s) es)) := by
    unfold life
    rw [List.foldl_append, List.foldl_cons]
    rfl
  rw [e]
  show constr _ _ _ = none
  rw [predict_lost _ h1 dq dv dt g i h]
  exact constr_nan _ _

/-! ### Concrete cases -/

/-- a NaN airspeed at 15 m/s, gate 3, variance 2 m²/s² of which 1.5 are noise: used; the same with a NaN z field and x, y fields off by 0.01 G -/
example : airspeedFused (some 15) none (some 3) (some 1.5) (some 2) = some none ∧
    ∃ innov, magFused (fun _ => some 0.4) ![some 0.41, some 0.39, none] (some 3) (fun _ => some 0.003) false = some innov ∧ innov 2 = none := by
  refine ⟨(nan_accepted 3 1.5 2 (by norm_num)).1 15 (by norm_num), ?_⟩
  obtain ⟨innov, h1, h2⟩ := nan_mag_accepted (fun _ => 0.4) ![some 0.41, some 0.39, none] 3 (fun _ => 0.003) false (fun _ => by norm_num) (by
    intro i m hm hz
    fin_cases i
    · have : m = 0.41 := by simpa [eq_comm] using hm
      rw [this]; norm_num
    · have : m = 0.39 := by simpa [eq_comm] using hm
      rw [this]; norm_num
    · simp at hm)
  exact ⟨innov, h1, h2 2 rfl (by simp)⟩

/-- a good state, a NaN airspeed fused into the wind only, velocity and position reset, the heading reset: one prediction later nothing is left of it -/
example : life (fun i => if i = 0 then some 1 else some 0)
    (.update (fun i => if i.val < 22 then some 0 else some 0.1) none ::
      [.assign (fun _ => some 0), .yaw (some 0.5)] ++ [.predict (fun i => if i = 0 then some 1 else some 0) (fun _ => some 0) (some 0.01) (some 9.8) (fun _ => some (-1)) (fun _ => some 1)]) 4
    = none := one_nan_sample _ _ _ _ _ _ _ _ _ _ (by decide)

end Ecl.Fusion.NaN
