import Verif.Aid.Mag
import Verif.Basic.Num
import Mathlib.Analysis.SpecialFunctions.Sqrt
import Mathlib.Data.Matrix.Mul

/-!
# C114 — numerical decisions behind the magnetometer modes, EKF/mag_control.cpp:126-137, 184-231, 274-301

Real numbers stand for floats; an unknown field strength (NaN) is `none`.
-/

namespace Ecl.Aid.Numeric

noncomputable section

/-- `Vector3f::length` / `Vector2f::norm` of the matrix library -/
def norm3 (m : Fin 3 → ℝ) : ℝ := Real.sqrt (m 0 * m 0 + m 1 * m 1 + m 2 * m 2)
def norm2 (a b : ℝ) : ℝ := Real.sqrt (a * a + b * b)

/-- `isMeasuredMatchingExpected`, EKF/mag_control.cpp:297-301; a NaN expectation makes both comparisons false -/
def matching (measured : ℝ) (expected : Option ℝ) (gate : ℝ) : Prop :=
  match expected with
  | some e => measured ≥ e - gate ∧ measured ≤ e + gate
  | none => False

/-- `checkMagFieldStrength`, `isMeasuredMatchingGpsMagStrength`, `isMeasuredMatchingAverageMagStrength`,
EKF/mag_control.cpp:274-295: the disturbance flag -/
def fieldDisturbed (check originInit : Bool) (strengthGps : Option ℝ) (mag : Fin 3 → ℝ) : Prop :=
  if check then
    if originInit then ¬ matching (norm3 mag) strengthGps (1 / 5) else ¬ matching (norm3 mag) (some (45 / 100)) (40 / 100)
  else False

/-- `checkHaglYawResetReq`, EKF/mag_control.cpp:131-135: above the ground anomalies -/
def aboveAnomalies (terrainVpos posD : ℝ) : Prop := terrainVpos - posD > 3 / 2

/-- what one evaluation of the 3-axis suitability reads -/
structure ObsIn where
  /-- `_imu_sample_delayed.time_us` -/
  t : UInt64
  /-- `_accel_lpf_NE`, `mag_acc_gate` -/
  accN : ℝ
  accE : ℝ
  accGate : ℝ
  /-- `gps || ev_pos` -/
  aided : Bool
  /-- `_yaw_rate_lpf_ef`, `mag_yaw_rate_gate`, `_yaw_delta_ef` since the previous evaluation -/
  yawRate : ℝ
  yawGate : ℝ
  yawDelta : ℝ

/-- members written by the suitability check -/
structure Obs where
  /-- `_yaw_angle_observable`, `_mag_bias_observable` -/
  yaw : Bool
  bias : Bool
  /-- `_time_yaw_started`, `_time_last_mov_3d_mag_suitable` -/
  tYaw : UInt64
  tMov : UInt64

/-- initial values, EKF/ekf.h:382-386 -/
def Obs.init : Obs := ⟨false, false, 0, 0⟩

/-- elapsed time in seconds, EKF/mag_control.cpp:214 -/
def yawDt (t t0 : UInt64) : ℝ := 1 / 1000000 * ((t - t0).toNat : ℝ)

open Classical in
/-- `checkYawAngleObservability`, EKF/mag_control.cpp:194-204 -/
def checkYaw (x : ObsIn) (o : Obs) : Obs :=
  let b := if o.yaw then decide (norm2 x.accN x.accE > x.accGate) else decide (norm2 x.accN x.accE > 2 * x.accGate)
  { o with yaw := b && x.aided }

open Classical in
/-- `checkMagBiasObservability`, EKF/mag_control.cpp:206-223 -/
def checkBias (x : ObsIn) (o : Obs) : Obs :=
  let b :=
    if !o.bias && decide (|x.yawRate| > x.yawGate) then true
    else if o.bias then decide (|x.yawDelta| > 1 / 2 * x.yawGate * yawDt x.t o.tYaw)
    else o.bias
  { o with
    bias := b
    tYaw := x.t }

/-- `check3DMagFusionSuitability`, EKF/mag_control.cpp:184-192 -/
def checkSuit (x : ObsIn) (o : Obs) : Obs :=
  let o := checkBias x (checkYaw x o)
  if o.bias || o.yaw then { o with tMov := x.t } else o

/-- a sequence of evaluations, oldest first -/
def obsRun (o : Obs) (xs : List ObsIn) : Obs := xs.foldl (fun o x => checkSuit x o) o

/-- the truth values handed to the control model -/
def numIn (n : ObsIn) (s : St) (x : In) : In :=
  open Classical in
  { x with
    tDel := n.t
    accStart := decide (norm2 n.accN n.accE > 2 * n.accGate)
    accKeep := decide (norm2 n.accN n.accE > n.accGate)
    yawRateBig := decide (|n.yawRate| > n.yawGate)
    yawDeltaBig := decide (|n.yawDelta| > 1 / 2 * n.yawGate * yawDt n.t s.tYaw) }

end

/-! ## Field strength -/

/-- **C114 (field strength).** With the test enabled the field counts as disturbed exactly when its strength is off by more than 0.2 gauss
from the value looked up for the GPS position, or, before an origin is set, outside 0.05 to 0.85 gauss; with the test disabled never. -/
theorem disturbed_iff (originInit : Bool) (e : ℝ) (mag : Fin 3 → ℝ) :
    (fieldDisturbed true originInit (some e) mag ↔
      if originInit = true then 1 / 5 < |norm3 mag - e| else norm3 mag < 5 / 100 ∨ 85 / 100 < norm3 mag) ∧
    ¬ fieldDisturbed false originInit (some e) mag := by
  constructor
  · unfold fieldDisturbed matching
    cases originInit
    · simp only [if_true, Bool.false_eq_true, if_false, not_and_or, not_le, ge_iff_le]
      constructor
      · rintro (h | h)
        · left; linarith
        · right; linarith
      · rintro (h | h)
        · left; linarith
        · right; linarith
    · simp only [if_true, not_and_or, not_le, ge_iff_le]
      rw [lt_abs]
      constructor
      · rintro (h | h)
        · right; linarith
        · left; linarith
      · rintro (h | h)
        · right; linarith
        · left; linarith
  · unfold fieldDisturbed; simp

/-- **C114 (field strength).** The verdict depends only on the strength, not on the orientation of the sensor: any orthogonal change of axes leaves
it unchanged. -/
theorem disturbed_rotation (check originInit : Bool) (e : Option ℝ) (R : Matrix (Fin 3) (Fin 3) ℝ) (hR : R.transpose * R = 1)
    (mag : Fin 3 → ℝ) : fieldDisturbed check originInit e (R.mulVec mag) ↔ fieldDisturbed check originInit e mag := by
  have hn : norm3 (R.mulVec mag) = norm3 mag := by
    have h : dotProduct (R.mulVec mag) (R.mulVec mag) = dotProduct mag mag := by
      rw [Matrix.dotProduct_mulVec, Matrix.vecMul_mulVec, hR, Matrix.vecMul_one]
    unfold norm3
    simp only [dotProduct, Fin.sum_univ_three] at h
    rw [h]
  unfold fieldDisturbed
  rw [hn]

/-- **C114 (unknown reference).** With the origin set but no reference strength (NaN) every field counts as disturbed. -/
theorem disturbed_unknown_reference (mag : Fin 3 → ℝ) : fieldDisturbed true true none mag := by
  unfold fieldDisturbed matching; simp

example : fieldDisturbed true false none ![1, 0, 0] ∧ ¬ fieldDisturbed true true (some (1 / 2)) ![0, 3 / 5, 0] := by
  unfold fieldDisturbed matching norm3
  have h1 : Real.sqrt (1 : ℝ) = 1 := Real.sqrt_one
  have h2 : Real.sqrt ((3 : ℝ) / 5 * (3 / 5)) = 3 / 5 := Real.sqrt_mul_self (by norm_num)
  constructor
  · simp; norm_num
  · simp [h2]; norm_num

/-! ## Suitability for 3-axis fusion over histories -/

/-- accelerating strongly enough to make yaw observable from scratch, with position aiding -/
def Spec.Strong (x : ObsIn) : Prop := 2 * x.accGate < norm2 x.accN x.accE ∧ x.aided = true
/-- accelerating enough to keep it observable -/
def Spec.Keeps (x : ObsIn) : Prop := x.accGate < norm2 x.accN x.accE ∧ x.aided = true

theorem checkSuit_yaw (x : ObsIn) (o : Obs) :
    (checkSuit x o).yaw = true ↔ if o.yaw = true then Spec.Keeps x else Spec.Strong x := by
  have : (checkSuit x o).yaw = (checkYaw x o).yaw := by
    unfold checkSuit checkBias; simp only []
    split_ifs <;> rfl
  rw [this]
  unfold checkYaw Spec.Keeps Spec.Strong
  cases o.yaw <;> simp

theorem obsRun_append (o : Obs) (xs : List ObsIn) (x : ObsIn) : obsRun o (xs ++ [x]) = checkSuit x (obsRun o xs) := by
  unfold obsRun; rw [List.foldl_append]; rfl

theorem norm2_nonneg (a b : ℝ) : 0 ≤ norm2 a b := Real.sqrt_nonneg _

theorem strong_keeps {x : ObsIn} (h : Spec.Strong x) : Spec.Keeps x := by
  obtain ⟨h1, h2⟩ := h
  refine ⟨?_, h2⟩
  have := norm2_nonneg x.accN x.accE
  by_cases hg : 0 ≤ x.accGate
  · linarith
  · push Not at hg; linarith

/-- **C114 (yaw observability, hysteresis).** After any history yaw counts as observable exactly when at some evaluation the filtered horizontal
acceleration exceeded twice the gate with position aiding, and at every evaluation since it exceeded the gate with position aiding. -/
theorem yawObservable_iff (xs : List ObsIn) :
    (obsRun Obs.init xs).yaw = true ↔
      ∃ pre x post, xs = pre ++ x :: post ∧ Spec.Strong x ∧ ∀ y ∈ post, Spec.Keeps y := by
  induction xs using List.reverseRecOn with
  | nil => simp [obsRun, Obs.init]
  | append_singleton xs x ih =>
    rw [obsRun_append, checkSuit_yaw]
    constructor
    · intro h
      by_cases hy : (obsRun Obs.init xs).yaw = true
      · rw [if_pos hy] at h
        obtain ⟨pre, z, post, e, hz, hp⟩ := ih.mp hy
        refine ⟨pre, z, post ++ [x], by rw [e]; simp, hz, fun y hy' => ?_⟩
        rcases List.mem_append.mp hy' with h' | h'
        · exact hp y h'
        · rw [List.mem_singleton.mp h']; exact h
      · rw [if_neg hy] at h
        exact ⟨xs, x, [], rfl, h, by simp⟩
    · rintro ⟨pre, z, post, e, hz, hp⟩
      rcases List.eq_nil_or_concat post with rfl | ⟨post', w, rfl⟩
      · have := List.append_inj' e rfl
        simp only [List.cons.injEq, and_true] at this
        rw [← this.2] at hz
        split_ifs
        · exact strong_keeps hz
        · exact hz
      · rw [List.concat_eq_append] at e hp
        have e' : xs ++ [x] = (pre ++ z :: post') ++ [w] := by rw [e]; simp
        have := List.append_inj' e' rfl
        simp only [List.cons.injEq, and_true] at this
        have hy : (obsRun Obs.init xs).yaw = true :=
          ih.mpr ⟨pre, z, post', this.1, hz, fun y hy => hp y (by simp [hy])⟩
        rw [if_pos hy, this.2]
        exact hp w (by simp)

/-- turning fast enough to start learning -/
def Spec.TurnStart (x : ObsIn) : Prop := x.yawGate < |x.yawRate|
/-- the mean turn rate since the previous evaluation (at time `t0`) is above half the gate -/
def Spec.TurnKept (t0 : UInt64) (x : ObsIn) : Prop := x.yawGate / 2 * (((x.t - t0).toNat : ℝ) / 1000000) < |x.yawDelta|
/-- the turn is kept up over consecutive evaluations, the first following one at time `t0` -/
def Spec.TurnKeptUp : UInt64 → List ObsIn → Prop
  | _, [] => True
  | t0, x :: xs => Spec.TurnKept t0 x ∧ Spec.TurnKeptUp x.t xs

theorem checkSuit_bias (x : ObsIn) (o : Obs) :
    ((checkSuit x o).bias = true ↔ if o.bias = true then Spec.TurnKept o.tYaw x else Spec.TurnStart x) ∧
    (checkSuit x o).tYaw = x.t := by
  have hf : (checkSuit x o).bias = (checkBias x (checkYaw x o)).bias ∧ (checkSuit x o).tYaw = (checkBias x (checkYaw x o)).tYaw := by
    unfold checkSuit; simp only []
    split_ifs <;> exact ⟨rfl, rfl⟩
  rw [hf.1, hf.2]
  unfold checkBias checkYaw Spec.TurnKept Spec.TurnStart yawDt
  refine ⟨?_, rfl⟩
  have e : 1 / 2 * x.yawGate * (1 / 1000000 * ((x.t - o.tYaw).toNat : ℝ)) = x.yawGate / 2 * (((x.t - o.tYaw).toNat : ℝ) / 1000000) := by ring
  simp only [e]
  cases o.bias <;> simp

theorem turnKeptUp_append (t0 : UInt64) (xs : List ObsIn) (x : ObsIn) :
    Spec.TurnKeptUp t0 (xs ++ [x]) ↔ Spec.TurnKeptUp t0 xs ∧ Spec.TurnKept ((xs.getLast?.map ObsIn.t).getD t0) x := by
  induction xs generalizing t0 with
  | nil => simp [Spec.TurnKeptUp]
  | cons y ys ih =>
    show Spec.TurnKept t0 y ∧ Spec.TurnKeptUp y.t (ys ++ [x]) ↔ (Spec.TurnKept t0 y ∧ Spec.TurnKeptUp y.t ys) ∧ _
    rw [ih, and_assoc]
    cases ys with
    | nil => simp
    | cons z zs =>
      rw [List.getLast?_cons_cons]
      have : ∃ w, (z :: zs).getLast? = some w := ⟨(z :: zs).getLast (by simp), List.getLast?_eq_getLast_of_ne_nil (by simp)⟩
      obtain ⟨w, hw⟩ := this
      simp [hw]

theorem obsRun_tYaw (xs : List ObsIn) : (obsRun Obs.init xs).tYaw = (xs.getLast?.map ObsIn.t).getD 0 := by
  rcases List.eq_nil_or_concat xs with rfl | ⟨xs, x, rfl⟩
  · rfl
  · rw [List.concat_eq_append, obsRun_append, (checkSuit_bias _ _).2]; simp

/-- **C114 (bias observability).** After any history the field bias counts as observable exactly when at some evaluation at which it was not observable
the yaw rate exceeded the gate and at every evaluation since the mean yaw rate stayed above half the gate. -/
theorem biasObservable_iff (xs : List ObsIn) :
    (obsRun Obs.init xs).bias = true ↔
      ∃ pre x post, xs = pre ++ x :: post ∧ (obsRun Obs.init pre).bias = false ∧ Spec.TurnStart x ∧ Spec.TurnKeptUp x.t post := by
  induction xs using List.reverseRecOn with
  | nil => simp [obsRun, Obs.init]
  | append_singleton xs x ih =>
    rw [obsRun_append, (checkSuit_bias _ _).1]
    constructor
    · intro h
      by_cases hy : (obsRun Obs.init xs).bias = true
      · rw [if_pos hy] at h
        obtain ⟨pre, z, post, e, hf, hz, hp⟩ := ih.mp hy
        refine ⟨pre, z, post ++ [x], by rw [e]; simp, hf, hz, ?_⟩
        rw [turnKeptUp_append]
        refine ⟨hp, ?_⟩
        rw [obsRun_tYaw, e] at h
        rcases List.eq_nil_or_concat post with rfl | ⟨post', w, rfl⟩
        · simpa using h
        · rw [List.concat_eq_append] at h ⊢
          rw [show pre ++ z :: (post' ++ [w]) = (pre ++ z :: post') ++ [w] by simp, List.getLast?_concat] at h
          rw [List.getLast?_concat]
          exact h
      · rw [if_neg hy] at h
        exact ⟨xs, x, [], rfl, by simpa using hy, h, trivial⟩
    · rintro ⟨pre, z, post, e, hf, hz, hp⟩
      rcases List.eq_nil_or_concat post with rfl | ⟨post', w, rfl⟩
      · have := List.append_inj' e rfl
        simp only [List.cons.injEq, and_true] at this
        rw [this.1, hf, this.2]
        simpa using hz
      · rw [List.concat_eq_append] at e hp
        have e' : xs ++ [x] = (pre ++ z :: post') ++ [w] := by rw [e]; simp
        have := List.append_inj' e' rfl
        simp only [List.cons.injEq, and_true] at this
        rw [turnKeptUp_append] at hp
        have hy : (obsRun Obs.init xs).bias = true := ih.mpr ⟨pre, z, post', this.1, hf, hz, hp.1⟩
        rw [if_pos hy, this.2, obsRun_tYaw, this.1]
        have h2 := hp.2
        rcases List.eq_nil_or_concat post' with rfl | ⟨p2, w2, rfl⟩
        · simpa using h2
        · rw [List.concat_eq_append] at h2 ⊢
          rw [show pre ++ z :: (p2 ++ [w2]) = (pre ++ z :: p2) ++ [w2] by simp, List.getLast?_concat]
          rw [List.getLast?_concat] at h2
          exact h2

/-- at the last evaluation of the history motion made yaw or the bias observable -/
def Spec.Suitable (xs : List ObsIn) : Prop := (obsRun Obs.init xs).yaw = true ∨ (obsRun Obs.init xs).bias = true

theorem obsRun_tMov (xs : List ObsIn) (x : ObsIn) :
    (Spec.Suitable (xs ++ [x]) → (obsRun Obs.init (xs ++ [x])).tMov = x.t) ∧
    (¬ Spec.Suitable (xs ++ [x]) → (obsRun Obs.init (xs ++ [x])).tMov = (obsRun Obs.init xs).tMov) := by
  unfold Spec.Suitable
  rw [obsRun_append]
  generalize obsRun Obs.init xs = o
  have h : (checkSuit x o).yaw = (checkBias x (checkYaw x o)).yaw ∧ (checkSuit x o).bias = (checkBias x (checkYaw x o)).bias := by
    unfold checkSuit; simp only []
    split_ifs <;> exact ⟨rfl, rfl⟩
  have hc : ((checkBias x (checkYaw x o)).bias || (checkBias x (checkYaw x o)).yaw) = true ↔
      ((checkSuit x o).yaw = true ∨ (checkSuit x o).bias = true) := by
    rw [h.1, h.2, Bool.or_eq_true, or_comm]
  constructor
  · intro hs
    unfold checkSuit; simp only []
    rw [if_pos (hc.mpr hs)]
  · intro hs
    unfold checkSuit; simp only []
    rw [if_neg (fun k => hs (hc.mp k))]
    rfl

/-- **C114 (time of the last suitable motion).** The recorded time is that of the latest evaluation with suitable motion (zero if none), so 3-axis
fusion is allowed for two seconds after it. -/
theorem lastSuitable (xs : List ObsIn) :
    ((∀ pre post, xs = pre ++ post → pre ≠ [] → ¬ Spec.Suitable pre) → (obsRun Obs.init xs).tMov = 0) ∧
    (∀ pre x post, xs = pre ++ x :: post → Spec.Suitable (pre ++ [x]) →
      (∀ p q, post = p ++ q → p ≠ [] → ¬ Spec.Suitable (pre ++ x :: p)) → (obsRun Obs.init xs).tMov = x.t) := by
  constructor
  · intro h
    induction xs using List.reverseRecOn with
    | nil => rfl
    | append_singleton xs x ih =>
      rw [(obsRun_tMov xs x).2 (h (xs ++ [x]) [] (by simp) (by simp))]
      exact ih (fun pre post e hne => h pre (post ++ [x]) (by rw [e]; simp) hne)
  · intro pre x post e hs hn
    rw [e]
    clear e
    induction post using List.reverseRecOn with
    | nil => exact (obsRun_tMov pre x).1 hs
    | append_singleton post y ih =>
      have e2 : pre ++ x :: (post ++ [y]) = (pre ++ x :: post) ++ [y] := by simp
      rw [e2, (obsRun_tMov (pre ++ x :: post) y).2 (by rw [← e2]; exact hn (post ++ [y]) [] (by simp) (by simp))]
      exact ih (fun p q e hne => hn p (q ++ [y]) (by rw [e]; simp) hne)

/-! ## Link to the control model -/

/-- the control model of the mode selection, fed with the truth values of the comparisons, computes exactly these members -/
theorem check3D_numeric (n : ObsIn) (s : St) (x : In) (hn : n.aided = (s.gps || s.evPos)) :
    let o := checkSuit n ⟨s.yawObs, s.biasObs, s.tYaw, s.tMov⟩
    let t := check3D (numIn n s x) s
    t.yawObs = o.yaw ∧ t.biasObs = o.bias ∧ t.tYaw = o.tYaw ∧ t.tMov = o.tMov := by
  intro o t
  simp only [o, t]
  unfold checkSuit checkBias checkYaw check3D numIn
  simp only [hn]
  split_ifs <;> exact ⟨rfl, rfl, rfl, rfl⟩

/-- **C114.** In automatic mode the three-axis fusion is used exactly when the heading was aligned in flight and the last suitable motion is less
than two seconds old; otherwise heading fusion is used. -/
theorem auto_mode_choice (n : ObsIn) (s : St) (x : In) (hn : n.aided = (s.gps || s.evPos)) :
    let o := checkSuit n ⟨s.yawObs, s.biasObs, s.tYaw, s.tMov⟩
    let t := selectMagAuto (numIn n s x) s
    (t.mag3D = true ↔ s.magAligned = true ∧ (n.t - o.tMov).toNat < 2000000) ∧ (t.magHdg = true ↔ t.mag3D = false) ∨
      (s.mag3D = true ∧ s.magHdg = true) := by
  intro o t
  by_cases hb : s.mag3D = true ∧ s.magHdg = true
  · exact Or.inr hb
  left
  obtain ⟨-, -, -, h4⟩ := check3D_numeric n s x hn
  have hfr : (check3D (numIn n s x) s).mag3D = s.mag3D ∧ (check3D (numIn n s x) s).magHdg = s.magHdg ∧
      (check3D (numIn n s x) s).magAligned = s.magAligned := by
    unfold check3D; simp only []
    split_ifs <;> exact ⟨rfl, rfl, rfl⟩
  have hc : canUse3D (numIn n s x) (check3D (numIn n s x) s) = true ↔ s.magAligned = true ∧ (n.t - o.tMov).toNat < 2000000 := by
    unfold canUse3D
    rw [hfr.2.2, h4, Bool.and_eq_true, Bool.not_eq_true', decide_eq_false_iff_not, u64_le_iff]
    have : (2000000 : UInt64).toNat = 2000000 := rfl
    rw [this, not_le]; rfl
  simp only [t]
  unfold selectMagAuto
  simp only []
  rw [← hc]
  generalize check3D (numIn n s x) s = c at *
  generalize canUse3D (numIn n s x) c = b
  obtain ⟨f1, f2, -⟩ := hfr
  rw [← f1, ← f2] at hb
  cases b
  · simp only [Bool.false_eq_true, if_false, startMagHdg, stopMag3D]
    cases hm : c.mag3D <;> simp [hm, St.act]
  · simp only [if_true, startMag3D, stopMagHdg]
    cases hm : c.mag3D <;> cases hh : c.magHdg <;> simp [hm, hh, St.act] at hb ⊢

/-- non-vacuity: a concrete history in which yaw becomes observable, stays so at reduced acceleration and is lost with the aiding -/
example :
    let a : ObsIn := ⟨1000000, 2, 0, 1 / 2, true, 0, 1 / 4, 0⟩
    let b : ObsIn := ⟨1100000, 0, 3 / 4, 1 / 2, true, 0, 1 / 4, 0⟩
    let c : ObsIn := ⟨1200000, 2, 0, 1 / 2, false, 0, 1 / 4, 0⟩
    (obsRun Obs.init [a, b]).yaw = true ∧ (obsRun Obs.init [b]).yaw = false ∧ (obsRun Obs.init [a, c]).yaw = false := by
  intro a b c
  have n2 : norm2 2 0 = 2 := by unfold norm2; rw [show (2 : ℝ) * 2 + 0 * 0 = 2 * 2 by ring]; exact Real.sqrt_mul_self (by norm_num)
  have n3 : norm2 0 (3 / 4) = 3 / 4 := by
    unfold norm2; rw [show (0 : ℝ) * 0 + 3 / 4 * (3 / 4) = 3 / 4 * (3 / 4) by ring]; exact Real.sqrt_mul_self (by norm_num)
  refine ⟨(yawObservable_iff _).mpr ⟨[], a, [b], rfl, ⟨?_, rfl⟩, ?_⟩, ?_, ?_⟩
  · show 2 * (1 / 2) < norm2 2 0; rw [n2]; norm_num
  · intro y hy; rw [List.mem_singleton.mp hy]
    refine ⟨?_, rfl⟩
    show 1 / 2 < norm2 0 (3 / 4); rw [n3]; norm_num
  · rw [Bool.eq_false_iff]
    show ¬ (obsRun Obs.init ([] ++ [b])).yaw = true
    rw [obsRun_append, checkSuit_yaw]
    rintro ⟨h, -⟩
    have h' : 2 * (1 / 2) < norm2 0 (3 / 4) := h
    rw [n3] at h'; norm_num at h'
  · rw [Bool.eq_false_iff]
    show ¬ (obsRun Obs.init ([a] ++ [c])).yaw = true
    rw [obsRun_append, checkSuit_yaw]
    split_ifs
    · rintro ⟨-, h⟩; exact absurd h (by simp [c])
    · rintro ⟨-, h⟩; exact absurd h (by simp [c])

/-- non-vacuity of the turn conditions -/
example :
    let a : ObsIn := ⟨1000000, 0, 0, 1 / 2, true, 1 / 2, 1 / 4, 0⟩
    let b : ObsIn := ⟨2000000, 0, 0, 1 / 2, true, 0, 1 / 4, 1 / 5⟩
    (obsRun Obs.init [a, b]).bias = true := by
  intro a b
  refine (biasObservable_iff _).mpr ⟨[], a, [b], rfl, rfl, ?_, ?_, trivial⟩
  · show (1 : ℝ) / 4 < |1 / 2|; rw [abs_of_pos (by norm_num)]; norm_num
  · show (1 : ℝ) / 4 / 2 * ((((2000000 : UInt64) - 1000000).toNat : ℝ) / 1000000) < |1 / 5|
    rw [show ((2000000 : UInt64) - 1000000).toNat = 1000000 from rfl, abs_of_pos (by norm_num)]; norm_num

end Ecl.Aid.Numeric
