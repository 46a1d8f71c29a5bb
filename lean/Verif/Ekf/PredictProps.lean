import Verif.Ekf.Predict
import Verif.Interface.Props2

/-!
# Properties of state limits, strap-down prediction and initial tilt (C23, C68, C69)
-/

noncomputable section

namespace Ecl.Ekf

open Ecl.ImuDownSampler (ImuSample AxisAngleLib normalize)
open scoped Matrix

/-! ### C23: state limits -/

/-- Specification of the documented state limits -/
structure Spec.WithinLimits (gyroBiasLim accBiasLim : ℝ) (s : State ℝ) : Prop where
  quat : |s.quat.w| ≤ 1 ∧ |s.quat.x| ≤ 1 ∧ |s.quat.y| ≤ 1 ∧ |s.quat.z| ≤ 1
  vel : ∀ i, |s.vel i| ≤ 1000
  pos : ∀ i, |s.pos i| ≤ 1000000
  gyro : ∀ i, |s.dAngBias i| ≤ gyroBiasLim
  acc : ∀ i, |s.dVelBias i| ≤ accBiasLim
  magI : ∀ i, |s.magI i| ≤ 1
  magB : ∀ i, |s.magB i| ≤ 1 / 2
  wind : ∀ i, |s.wind i| ≤ 100

theorem abs_constrain_le {x l : ℝ} (hl : 0 ≤ l) : |constrain x (-l) l| ≤ l :=
  abs_le.mpr ⟨constrain_ge (by linarith), constrain_le (by linarith)⟩

theorem constrain_abs_id {x l : ℝ} (h : |x| ≤ l) : constrain x (-l) l = x :=
  constrain_of_mem (abs_le.mp h).1 (abs_le.mp h).2

theorem constrainV_id {n : ℕ} {v : Fin n → ℝ} {l : ℝ} (h : ∀ i, |v i| ≤ l) : constrainV v (-l) l = v := by
  funext i; exact constrain_abs_id (h i)

theorem radians_nonneg {x : ℝ} (h : 0 ≤ x) : 0 ≤ radians x := by
  unfold radians; have := Real.pi_pos; positivity

/-- **C23.** The result is within the limits. -/
theorem constrainStates_within (dt accLim : ℝ) (hdt : 0 ≤ dt) (ha : 0 ≤ accLim) (s : State ℝ) :
    Spec.WithinLimits (20 * Real.pi / 180 * dt) (accLim * dt) (constrainStates dt accLim s) := by
  have hr : radians 20 * dt = 20 * Real.pi / 180 * dt := by unfold radians; ring
  have h1 : 0 ≤ radians 20 * dt := mul_nonneg (radians_nonneg (by norm_num)) hdt
  have h2 : 0 ≤ accLim * dt := mul_nonneg ha hdt
  refine ⟨⟨?_, ?_, ?_, ?_⟩, fun i => ?_, fun i => ?_, fun i => ?_, fun i => ?_, fun i => ?_, fun i => ?_, fun i => ?_⟩
  · exact abs_constrain_le (by norm_num)
  · exact abs_constrain_le (by norm_num)
  · exact abs_constrain_le (by norm_num)
  · exact abs_constrain_le (by norm_num)
  · exact abs_constrain_le (by norm_num)
  · exact abs_constrain_le (by norm_num)
  · rw [← hr]; exact abs_constrain_le h1
  · exact abs_constrain_le h2
  · exact abs_constrain_le (by norm_num)
  · exact abs_constrain_le (by norm_num)
  · exact abs_constrain_le (by norm_num)

/-- **C23.** A state within the limits is unchanged; in particular limiting is idempotent. -/
theorem constrainStates_id (dt accLim : ℝ) (s : State ℝ)
    (h : Spec.WithinLimits (20 * Real.pi / 180 * dt) (accLim * dt) s) : constrainStates dt accLim s = s := by
  have hr : 20 * Real.pi / 180 * dt = radians 20 * dt := by unfold radians; ring
  rw [hr] at h
  unfold constrainStates
  obtain ⟨⟨q0, q1, q2, q3⟩, hv, hp, hg, ha, hI, hB, hw⟩ := h
  simp only [constrain_abs_id q0, constrain_abs_id q1, constrain_abs_id q2, constrain_abs_id q3, constrainV_id hv,
    constrainV_id hp, constrainV_id hg, constrainV_id ha, constrainV_id hI, constrainV_id hB, constrainV_id hw]

/-- **C23.** Limiting never moves a component away from any in-limit value: each component of the result is the
point of its limit interval closest to the input (distance to every in-limit state does not grow). -/
theorem constrainStates_nearest (dt accLim : ℝ) (s t : State ℝ)
    (h : Spec.WithinLimits (20 * Real.pi / 180 * dt) (accLim * dt) t) :
    let s' := constrainStates dt accLim s
    |s'.quat.w - s.quat.w| ≤ |t.quat.w - s.quat.w| ∧ |s'.quat.x - s.quat.x| ≤ |t.quat.x - s.quat.x| ∧
    |s'.quat.y - s.quat.y| ≤ |t.quat.y - s.quat.y| ∧ |s'.quat.z - s.quat.z| ≤ |t.quat.z - s.quat.z| ∧
    (∀ i, |s'.vel i - s.vel i| ≤ |t.vel i - s.vel i|) ∧ (∀ i, |s'.pos i - s.pos i| ≤ |t.pos i - s.pos i|) ∧
    (∀ i, |s'.dAngBias i - s.dAngBias i| ≤ |t.dAngBias i - s.dAngBias i|) ∧
    (∀ i, |s'.dVelBias i - s.dVelBias i| ≤ |t.dVelBias i - s.dVelBias i|) ∧
    (∀ i, |s'.magI i - s.magI i| ≤ |t.magI i - s.magI i|) ∧ (∀ i, |s'.magB i - s.magB i| ≤ |t.magB i - s.magB i|) ∧
    (∀ i, |s'.wind i - s.wind i| ≤ |t.wind i - s.wind i|) := by
  have key : ∀ x y l : ℝ, |y| ≤ l → |constrain x (-l) l - x| ≤ |y - x| := by
    intro x y l hy
    obtain ⟨h1, h2⟩ := abs_le.mp hy
    unfold constrain
    split
    · next hlt => rw [abs_of_pos (by linarith), abs_of_pos (by linarith)]; linarith
    · split
      · next hgt => rw [abs_of_neg (by linarith), abs_of_neg (by linarith)]; linarith
      · simp
  have hr : 20 * Real.pi / 180 * dt = radians 20 * dt := by unfold radians; ring
  rw [hr] at h
  obtain ⟨⟨q0, q1, q2, q3⟩, hv, hp, hg, ha, hI, hB, hw⟩ := h
  exact ⟨key _ _ _ q0, key _ _ _ q1, key _ _ _ q2, key _ _ _ q3, fun i => key _ _ _ (hv i), fun i => key _ _ _ (hp i),
    fun i => key _ _ _ (hg i), fun i => key _ _ _ (ha i), fun i => key _ _ _ (hI i), fun i => key _ _ _ (hB i),
    fun i => key _ _ _ (hw i)⟩

/-- Non-vacuity: an in-limit state and an out-of-limit one. -/
def exState : State ℝ := ⟨⟨1, 0, 0, 0⟩, ![1, 2, 3], ![4, 5, 6], 0, 0, 0, 0, 0⟩
example : Spec.WithinLimits (20 * Real.pi / 180 * (1 / 100)) (4 / 10 * (1 / 100)) exState := by
  have := Real.pi_pos
  refine ⟨by simp [exState], ?_, ?_, ?_, ?_, ?_, ?_, ?_⟩ <;> intro i <;> fin_cases i <;> simp [exState] <;> norm_num <;>
    positivity
example : (constrainStates (1 / 100) (4 / 10) { exState with vel := ![1, -2000, 3] }).vel = ![1, -1000, 3] := by
  funext i; fin_cases i <;> simp [constrainStates, constrainV, constrain] <;> norm_num

/-! ### C68: strap-down prediction -/

/-- **C68 (attitude).** A unit attitude stays unit; the increment is the measured rotation minus bias and minus the
earth rotation seen in body axes. -/
theorem predict_attitude (L : AxisAngleLib) (lim : ℝ) (w : V3 ℝ) (imu : ImuSample) (s : Strap)
    (hq : s.state.quat.normSq = 1) (hR : s.R = s.state.quat.dcm) :
    let s' := s.predict L lim w imu
    s'.state.quat = s.state.quat.mul
      (L.exp (fun i => imu.deltaAng i - s.state.dAngBias i - (s.state.quat.dcmᵀ *ᵥ w) i * imu.deltaAngDt)) ∧
    s'.state.quat.normSq = 1 ∧ s'.R = s'.state.quat.dcm := by
  have hdq : (fun i => imu.deltaAng i - s.state.dAngBias i - (s.state.quat.dcmᵀ *ᵥ w) i * imu.deltaAngDt) =
      imu.deltaAng - s.state.dAngBias - imu.deltaAngDt • (s.Rᵀ *ᵥ w) := by
    rw [hR]; funext i; simp only [Pi.sub_apply, Pi.smul_apply, smul_eq_mul]; ring
  rw [hdq]
  set dq := L.exp (imu.deltaAng - s.state.dAngBias - imu.deltaAngDt • (s.Rᵀ *ᵥ w)) with hdqd
  have hu : (s.state.quat.mul dq).normSq = 1 := by rw [Quat.normSq_mul, hq, hdqd, L.exp_unit, one_mul]
  have hn : normalize (s.state.quat.mul dq) = s.state.quat.mul dq :=
    ImuDownSampler.normalize_unit hu
  have hb : ∀ x : Quat ℝ, x.normSq = 1 → |x.w| ≤ 1 ∧ |x.x| ≤ 1 ∧ |x.y| ≤ 1 ∧ |x.z| ≤ 1 := by
    intro x hx
    unfold Quat.normSq at hx
    refine ⟨?_, ?_, ?_, ?_⟩ <;> rw [← sq_le_one_iff_abs_le_one] <;>
      nlinarith [mul_self_nonneg x.w, mul_self_nonneg x.x, mul_self_nonneg x.y, mul_self_nonneg x.z]
  obtain ⟨b0, b1, b2, b3⟩ := hb _ hu
  have hs : (s.predict L lim w imu).state.quat = s.state.quat.mul dq := by
    show Quat.mk (constrain (normalize (s.state.quat.mul dq)).w (-1) 1) (constrain (normalize (s.state.quat.mul dq)).x (-1) 1)
      (constrain (normalize (s.state.quat.mul dq)).y (-1) 1) (constrain (normalize (s.state.quat.mul dq)).z (-1) 1) = _
    rw [hn, constrain_abs_id b0, constrain_abs_id b1, constrain_abs_id b2, constrain_abs_id b3]
  refine ⟨hs, by rw [hs]; exact hu, ?_⟩
  rw [hs]
  show (normalize (s.state.quat.mul dq)).dcm = _
  rw [hn]

/-- **C68 (velocity, position, other outputs).** Velocity increases by the bias-corrected specific force rotated with the
*new* attitude plus gravity, position by the mean of old and new velocity times the interval; both are clipped at their
limits; biases are clipped to their limits, field and wind states likewise; the filtered horizontal acceleration and raw
angular rate follow. -/
theorem predict_kinematics (L : AxisAngleLib) (lim : ℝ) (w : V3 ℝ) (imu : ImuSample) (s : Strap)
    (hq : s.state.quat.normSq = 1) (hR : s.R = s.state.quat.dcm) :
    let s' := s.predict L lim w imu
    let f : V3 ℝ := s'.state.quat.dcm *ᵥ (fun i => imu.deltaVel i - s.state.dVelBias i)
    let v : V3 ℝ := ![s.state.vel 0 + f 0, s.state.vel 1 + f 1, s.state.vel 2 + f 2 + 980665 / 100000 * imu.deltaVelDt]
    (∀ i, s'.state.vel i = max (-1000) (min (v i) 1000)) ∧
    (∀ i, s'.state.pos i =
      max (-1000000) (min (s.state.pos i + (s.state.vel i + v i) / 2 * imu.deltaVelDt) 1000000)) ∧
    s'.accelLpf = ![s.accelLpf 0 * (1 - imu.deltaVelDt) + f 0, s.accelLpf 1 * (1 - imu.deltaVelDt) + f 1] ∧
    (imu.deltaAngDt > 1 / 400 → ∀ i, s'.angRateRaw i = imu.deltaAng i / imu.deltaAngDt) ∧
    (imu.deltaAngDt ≤ 1 / 400 → s'.angRateRaw = s.angRateRaw) := by
  obtain ⟨h1, h2, h3⟩ := predict_attitude L lim w imu s hq hR
  intro s' f v
  have hRR : s'.R = s'.state.quat.dcm := h3
  have hf : f = s'.R *ᵥ (imu.deltaVel - s.state.dVelBias) := by
    rw [hRR]; rfl
  have hvdef : v = ![s.state.vel 0 + (s'.R *ᵥ (imu.deltaVel - s.state.dVelBias)) 0,
      s.state.vel 1 + (s'.R *ᵥ (imu.deltaVel - s.state.dVelBias)) 1,
      s.state.vel 2 + (s'.R *ᵥ (imu.deltaVel - s.state.dVelBias)) 2 + oneG * imu.deltaVelDt] := by
    rw [← hf]; rfl
  refine ⟨fun i => ?_, fun i => ?_, ?_, ?_, ?_⟩
  · rw [hvdef, ← constrain_eq (by norm_num)]; rfl
  · rw [← constrain_eq (by norm_num)]
    have hp : s'.state.pos i = constrain ((s.state.pos + (imu.deltaVelDt * (1 / 2)) • (s.state.vel +
        ![s.state.vel 0 + (s'.R *ᵥ (imu.deltaVel - s.state.dVelBias)) 0,
      s.state.vel 1 + (s'.R *ᵥ (imu.deltaVel - s.state.dVelBias)) 1,
      s.state.vel 2 + (s'.R *ᵥ (imu.deltaVel - s.state.dVelBias)) 2 + oneG * imu.deltaVelDt])) i) (-1000000) 1000000 := rfl
    rw [hp, ← hvdef]
    congr 1
    simp only [Pi.add_apply, Pi.smul_apply, smul_eq_mul]
    ring
  · rw [hf]; rfl
  · intro h i
    have : s'.angRateRaw = if imu.deltaAngDt > 1 / 4 * (1 / 100) then (1 / imu.deltaAngDt) • imu.deltaAng else s.angRateRaw := rfl
    rw [this, if_pos (by norm_num at h ⊢; exact h)]
    simp only [Pi.smul_apply, smul_eq_mul]; ring
  · intro h
    have : s'.angRateRaw = if imu.deltaAngDt > 1 / 4 * (1 / 100) then (1 / imu.deltaAngDt) • imu.deltaAng else s.angRateRaw := rfl
    rw [this, if_neg (by norm_num at h ⊢; exact h)]

theorem predict_others (L : AxisAngleLib) (lim : ℝ) (w : V3 ℝ) (imu : ImuSample) (s : Strap) :
    let s' := s.predict L lim w imu
    let c := constrainStates s.dtEkfAvg lim s.state
    s'.state.dAngBias = c.dAngBias ∧ s'.state.dVelBias = c.dVelBias ∧ s'.state.magI = c.magI ∧
    s'.state.magB = c.magB ∧ s'.state.wind = c.wind := ⟨rfl, rfl, rfl, rfl, rfl⟩

/-- an IMU sample of a non-rotating vehicle with attitude `R` and constant earth-frame acceleration `a`, seen through
the sensor biases `bg`, `ba`: gyro = bias + earth rate, accelerometer = bias + specific force -/
def Spec.ConstAccel (R : M3 ℝ) (w a bg ba : V3 ℝ) (imu : ImuSample) : Prop :=
  (∀ i, imu.deltaAng i = bg i + (Rᵀ *ᵥ w) i * imu.deltaAngDt) ∧
  (∀ i, imu.deltaVel i = ba i + (Rᵀ *ᵥ (fun j => a j - ![0, 0, 980665 / 100000] j)) i * imu.deltaVelDt) ∧
  0 ≤ imu.deltaVelDt

theorem dtEkfAvg_range {d : ℝ} (h : d ∈ Set.Icc (1 / 200 : ℝ) (1 / 50)) (x y : ℝ) :
    Interface.ekfAvgStep d x y ∈ Set.Icc (1 / 200 : ℝ) (1 / 50) := by
  unfold Interface.ekfAvgStep
  simp only
  have h1 := constrain_ge (v := (1 / 2) * (x + y)) (lo := (1 / 2 : ℝ) * (1 / 100)) (hi := 2 * (1 / 100)) (by norm_num)
  have h2 := constrain_le (v := (1 / 2) * (x + y)) (lo := (1 / 2 : ℝ) * (1 / 100)) (hi := 2 * (1 / 100)) (by norm_num)
  obtain ⟨h3, h4⟩ := h
  constructor <;> linarith

/-- **C68 (exactness).** For a non-rotating vehicle under constant acceleration with correctly estimated biases, the
prediction over *any* sequence of samples of any durations is exact: attitude constant, `v = v0 + a T`,
`p = p0 + v0 T + a T²/2`, as long as the limits are not reached on the way. (With `a = 0`, `v0 = 0`: a vehicle at rest
stays at rest.) -/
theorem constant_acceleration_exact (L : AxisAngleLib) (hexp : L.exp 0 = Quat.one) (lim : ℝ) (hlim : 0 ≤ lim)
    (w a : V3 ℝ) (imus : List ImuSample) (s : Strap)
    (hq : s.state.quat.normSq = 1) (hR : s.R = s.state.quat.dcm) (hd : s.dtEkfAvg ∈ Set.Icc (1 / 200 : ℝ) (1 / 50))
    (hl : Spec.WithinLimits (20 * Real.pi / 180 * (1 / 200)) (lim * (1 / 200)) s.state)
    (himu : ∀ imu ∈ imus, Spec.ConstAccel s.state.quat.dcm w a s.state.dAngBias s.state.dVelBias imu)
    (hreach : ∀ t, 0 ≤ t → t ≤ (imus.map (·.deltaVelDt)).sum → ∀ i, |s.state.vel i + a i * t| ≤ 1000 ∧
      |s.state.pos i + s.state.vel i * t + a i * t ^ 2 / 2| ≤ 1000000) :
    let T := (imus.map (·.deltaVelDt)).sum
    (s.run L lim w imus).state = { s.state with
      vel := fun i => s.state.vel i + a i * T
      pos := fun i => s.state.pos i + s.state.vel i * T + a i * T ^ 2 / 2 } := by
  induction imus generalizing s with
  | nil =>
    simp only [Strap.run, List.foldl_nil, List.map_nil, List.sum_nil, mul_zero, add_zero, zero_pow, ne_eq,
      OfNat.ofNat_ne_zero, not_false_eq_true, zero_div]
  | cons imu imus ih =>
    obtain ⟨hda, hdv, hdt⟩ := himu imu (by simp)
    obtain ⟨p1, p2, p3⟩ := predict_attitude L lim w imu s hq hR
    obtain ⟨k1, k2, -, -, -⟩ := predict_kinematics L lim w imu s hq hR
    obtain ⟨o1, o2, o3, o4, o5⟩ := predict_others L lim w imu s
    set s1 := s.predict L lim w imu with hs1
    have hz : (fun i => imu.deltaAng i - s.state.dAngBias i - (s.state.quat.dcmᵀ *ᵥ w) i * imu.deltaAngDt) = (0 : V3 ℝ) := by
      funext i; rw [hda i]; simp
    rw [hz, hexp, Quat.mul_one] at p1
    have hnn : ∀ x ∈ imus.map (·.deltaVelDt), (0 : ℝ) ≤ x := by
      intro x hx
      obtain ⟨y, hy, rfl⟩ := List.mem_map.mp hx
      exact (himu y (by simp [hy])).2.2
    have hsum : 0 ≤ (imus.map (·.deltaVelDt)).sum := List.sum_nonneg hnn
    -- the earth-frame force
    have hf : s1.state.quat.dcm *ᵥ (fun i => imu.deltaVel i - s.state.dVelBias i) =
        fun j => (a j - ![0, 0, 980665 / 100000] j) * imu.deltaVelDt := by
      have e : (fun i => imu.deltaVel i - s.state.dVelBias i) =
          imu.deltaVelDt • (s.state.quat.dcmᵀ *ᵥ (fun j => a j - ![0, 0, 980665 / 100000] j)) := by
        funext i; rw [hdv i]; simp only [Pi.smul_apply, smul_eq_mul]; ring
      rw [e, p1, Matrix.mulVec_smul, Matrix.mulVec_mulVec, Quat.dcm_mul_transpose _ hq, Matrix.one_mulVec]
      funext j; simp only [Pi.smul_apply, smul_eq_mul]; ring
    have hr1 := hreach imu.deltaVelDt hdt (by simp only [List.map_cons, List.sum_cons]; linarith)
    have hv : ∀ i, s1.state.vel i = s.state.vel i + a i * imu.deltaVelDt := by
      intro i
      rw [k1 i]
      rw [← constrain_eq (by norm_num)]
      have : (![s.state.vel 0 + (s1.state.quat.dcm *ᵥ fun i => imu.deltaVel i - s.state.dVelBias i) 0,
          s.state.vel 1 + (s1.state.quat.dcm *ᵥ fun i => imu.deltaVel i - s.state.dVelBias i) 1,
          s.state.vel 2 + (s1.state.quat.dcm *ᵥ fun i => imu.deltaVel i - s.state.dVelBias i) 2 +
            980665 / 100000 * imu.deltaVelDt] : V3 ℝ) i = s.state.vel i + a i * imu.deltaVelDt := by
        rw [hf]; fin_cases i <;> simp <;> ring
      rw [this]; exact constrain_abs_id (hr1 i).1
    have hp : ∀ i, s1.state.pos i = s.state.pos i + s.state.vel i * imu.deltaVelDt + a i * imu.deltaVelDt ^ 2 / 2 := by
      intro i
      rw [k2 i]
      rw [← constrain_eq (by norm_num)]
      have : s.state.pos i + (s.state.vel i +
          (![s.state.vel 0 + (s1.state.quat.dcm *ᵥ fun i => imu.deltaVel i - s.state.dVelBias i) 0,
          s.state.vel 1 + (s1.state.quat.dcm *ᵥ fun i => imu.deltaVel i - s.state.dVelBias i) 1,
          s.state.vel 2 + (s1.state.quat.dcm *ᵥ fun i => imu.deltaVel i - s.state.dVelBias i) 2 +
            980665 / 100000 * imu.deltaVelDt] : V3 ℝ) i) / 2 * imu.deltaVelDt =
          s.state.pos i + s.state.vel i * imu.deltaVelDt + a i * imu.deltaVelDt ^ 2 / 2 := by
        rw [hf]; fin_cases i <;> simp <;> ring
      rw [this]; exact constrain_abs_id (hr1 i).2
    -- the other states are within their limits
    have hl' : Spec.WithinLimits (20 * Real.pi / 180 * s.dtEkfAvg) (lim * s.dtEkfAvg) s.state := by
      have hpi := Real.pi_pos
      refine ⟨hl.quat, hl.vel, hl.pos, fun i => (hl.gyro i).trans ?_, fun i => (hl.acc i).trans ?_, hl.magI, hl.magB, hl.wind⟩
      · exact mul_le_mul_of_nonneg_left hd.1 (by positivity)
      · exact mul_le_mul_of_nonneg_left hd.1 hlim
    rw [constrainStates_id _ _ _ hl'] at o1 o2 o3 o4 o5
    have hs1st : s1.state = { s.state with
        vel := fun i => s.state.vel i + a i * imu.deltaVelDt
        pos := fun i => s.state.pos i + s.state.vel i * imu.deltaVelDt + a i * imu.deltaVelDt ^ 2 / 2 } := by
      rw [State.ext_iff]; exact ⟨p1, funext hv, funext hp, o1, o2, o3, o4, o5⟩
    have hwl : Spec.WithinLimits (20 * Real.pi / 180 * (1 / 200)) (lim * (1 / 200)) s1.state := by
      rw [hs1st]
      exact ⟨hl.quat, fun i => (hr1 i).1, fun i => (hr1 i).2, hl.gyro, hl.acc, hl.magI, hl.magB, hl.wind⟩
    have hrun : s.run L lim w (imu :: imus) = s1.run L lim w imus := rfl
    have := ih s1 p2 p3 (dtEkfAvg_range hd _ _) hwl
      (by intro y hy; rw [p1, o1, o2]; exact himu y (by simp [hy]))
      (by
        intro t ht0 ht i
        have := hreach (imu.deltaVelDt + t) (by linarith) (by simp only [List.map_cons, List.sum_cons]; linarith) i
        rw [hv i, hp i]
        refine ⟨by convert this.1 using 2; ring, by convert this.2 using 2; ring⟩)
    rw [hrun, this]
    rw [State.ext_iff]
    simp only [List.map_cons, List.sum_cons]
    refine ⟨p1, ?_, ?_, o1, o2, o3, o4, o5⟩
    · funext i; rw [hv i]; ring
    · funext i; rw [hv i, hp i]; ring

/-- Non-vacuity: accelerating at 1 m/s² north for two samples (library of the code). -/
example : ∃ (s : Strap) (imus : List ImuSample), imus.length = 2 ∧ s.state.quat.normSq = 1 ∧ s.R = s.state.quat.dcm ∧
    s.dtEkfAvg ∈ Set.Icc (1 / 200 : ℝ) (1 / 50) ∧ ImuDownSampler.matrixLib.exp 0 = Quat.one ∧
    Spec.WithinLimits (20 * Real.pi / 180 * (1 / 200)) (4 / 10 * (1 / 200)) s.state ∧
    (∀ imu ∈ imus, Spec.ConstAccel s.state.quat.dcm 0 ![1, 0, 0] s.state.dAngBias s.state.dVelBias imu) ∧
    (∀ t, 0 ≤ t → t ≤ (imus.map (·.deltaVelDt)).sum → ∀ i, |s.state.vel i + (![1, 0, 0] : V3 ℝ) i * t| ≤ 1000 ∧
      |s.state.pos i + s.state.vel i * t + (![1, 0, 0] : V3 ℝ) i * t ^ 2 / 2| ≤ 1000000) := by
  let imu : ImuSample := ⟨0, 0, ![1 / 100, 0, -(980665 / 100000) / 100], 1 / 100, 1 / 100, fun _ => false⟩
  have hone : (⟨1, 0, 0, 0⟩ : Quat ℝ).dcm = 1 := Quat.dcm_one
  refine ⟨⟨exState, exState.quat.dcm, 0, 1 / 100, 0⟩, [imu, imu], rfl, by simp [exState, Quat.normSq], rfl,
    by constructor <;> norm_num, ?_, ?_, ?_, ?_⟩
  · simp [ImuDownSampler.matrixLib, ImuDownSampler.axisAngleExp]
  · have := Real.pi_pos
    refine ⟨by simp [exState], ?_, ?_, ?_, ?_, ?_, ?_, ?_⟩ <;> intro i <;> fin_cases i <;> simp [exState] <;> norm_num <;>
      positivity
  · intro y hy
    have hy' : y = imu := by simpa using hy
    rw [hy']
    refine ⟨?_, ?_, by norm_num [imu]⟩
    · intro i; simp [imu, exState, hone]
    · intro i
      simp only [exState, hone, Matrix.transpose_one, Matrix.one_mulVec]
      fin_cases i <;> simp [imu] <;> norm_num
  · intro t h0 h1 i
    have ht : t ≤ 1 / 50 := by simp [imu] at h1; linarith
    fin_cases i <;> simp [exState]
    · constructor <;> rw [abs_le] <;> constructor <;> nlinarith
    · norm_num; rw [abs_le]; constructor <;> nlinarith
    · norm_num; rw [abs_le]; constructor <;> nlinarith

/-- **C68 (earth rate).** The modelled earth rotation has the documented magnitude, no east component, and points north
on the equator and up on the north pole. -/
theorem earthRate_spec (lat : ℝ) :
    (calcEarthRateNED lat 0) ^ 2 + (calcEarthRateNED lat 1) ^ 2 + (calcEarthRateNED lat 2) ^ 2 = (72921150 / 10 ^ 12) ^ 2 ∧
    calcEarthRateNED lat 1 = 0 ∧ calcEarthRateNED 0 = ![72921150 / 10 ^ 12, 0, 0] ∧
    calcEarthRateNED (Real.pi / 2) = ![0, 0, -(72921150 / 10 ^ 12)] := by
  refine ⟨?_, rfl, ?_, ?_⟩
  · unfold calcEarthRateNED
    simp only [Matrix.cons_val_zero, Matrix.cons_val_one, Matrix.cons_val]
    have := Real.sin_sq_add_cos_sq lat
    nlinarith [this]
  · funext i; fin_cases i <;> simp [calcEarthRateNED] <;> norm_num
  · funext i; fin_cases i <;> simp [calcEarthRateNED] <;> norm_num

/-! ### C69: initial tilt -/

theorem quatOfEuler_unit (r p y : ℝ) : (quatOfEuler r p y).normSq = 1 := by
  unfold quatOfEuler Quat.normSq
  simp only
  have h1 := Real.sin_sq_add_cos_sq (r / 2)
  have h2 := Real.sin_sq_add_cos_sq (p / 2)
  have h3 := Real.sin_sq_add_cos_sq (y / 2)
  generalize Real.sin (r / 2) = a at *
  generalize Real.cos (r / 2) = b at *
  generalize Real.sin (p / 2) = c at *
  generalize Real.cos (p / 2) = d at *
  generalize Real.sin (y / 2) = e at *
  generalize Real.cos (y / 2) = f at *
  have : (a ^ 2 + b ^ 2) * (c ^ 2 + d ^ 2) * (e ^ 2 + f ^ 2) = 1 := by rw [h1, h2, h3]; norm_num
  linear_combination this

theorem quatOfEuler_tilt (r p : ℝ) :
    (quatOfEuler r p 0).dcm 2 = ![-Real.sin p, Real.cos p * Real.sin r, Real.cos p * Real.cos r] ∧
    (quatOfEuler r p 0).dcm 1 0 = 0 ∧ (quatOfEuler r p 0).dcm 0 0 = Real.cos p := by
  have hp : p = 2 * (p / 2) := by ring
  have hr : r = 2 * (r / 2) := by ring
  have e1 : Real.sin p = 2 * Real.sin (p / 2) * Real.cos (p / 2) := by conv_lhs => rw [hp, Real.sin_two_mul]
  have e2 : Real.cos p = Real.cos (p / 2) ^ 2 - Real.sin (p / 2) ^ 2 := by conv_lhs => rw [hp, Real.cos_two_mul']
  have e3 : Real.sin r = 2 * Real.sin (r / 2) * Real.cos (r / 2) := by conv_lhs => rw [hr, Real.sin_two_mul]
  have e4 : Real.cos r = Real.cos (r / 2) ^ 2 - Real.sin (r / 2) ^ 2 := by conv_lhs => rw [hr, Real.cos_two_mul']
  have h1 := Real.sin_sq_add_cos_sq (r / 2)
  have h2 := Real.sin_sq_add_cos_sq (p / 2)
  refine ⟨?_, ?_, ?_⟩
  · funext j
    rw [e1, e2, e3, e4]
    fin_cases j <;> simp [quatOfEuler, Quat.dcm]
    · linear_combination (-2 * Real.sin (p / 2) * Real.cos (p / 2)) * h1
    · ring
    · ring
  · simp [quatOfEuler, Quat.dcm]; ring
  · rw [e2]; simp [quatOfEuler, Quat.dcm]
    linear_combination (Real.cos (p / 2) ^ 2 - Real.sin (p / 2) ^ 2) * h1

/-- **C69.** Tilt initialisation succeeds iff the mean accelerometer magnitude is within 20 % of gravity and the mean
rate does not exceed 15 deg/s; it then yields a unit attitude with zero yaw (north-pointing or vertical nose) whose
down direction in body axes is exactly opposite to the measured specific force: rotating the measured force to earth
axes gives a vector pointing straight up. -/
theorem initialiseTilt_spec (accel gyro : V3 ℝ) :
    ((initialiseTilt accel gyro).isSome ↔
      8 / 10 * (980665 / 100000) ≤ norm3 accel ∧ norm3 accel ≤ 12 / 10 * (980665 / 100000) ∧
      norm3 gyro ≤ 15 * Real.pi / 180) ∧
    ∀ q, initialiseTilt accel gyro = some q →
      q.normSq = 1 ∧ q.dcm 1 0 = 0 ∧ 0 ≤ q.dcm 0 0 ∧ q.dcm *ᵥ accel = ![0, 0, -norm3 accel] := by
  have hr : radians 15 = 15 * Real.pi / 180 := by unfold radians; ring
  constructor
  · unfold initialiseTilt
    rw [hr]; unfold oneG
    split
    · next h =>
      simp only [Option.isSome_none, Bool.false_eq_true, false_iff]
      rintro ⟨h1, h2, h3⟩
      rcases h with h | h | h <;> linarith
    · next h =>
      push Not at h
      simp only [Option.isSome_some, true_iff]
      exact ⟨h.1, h.2.1, h.2.2⟩
  · intro q hq
    unfold initialiseTilt at hq
    split at hq
    · cases hq
    · next h =>
      push Not at h
      have hn : 0 < norm3 accel := by
        have := h.1; unfold oneG at this; linarith
      have hn2 : norm3 accel * norm3 accel = accel 0 * accel 0 + accel 1 * accel 1 + accel 2 * accel 2 :=
        Real.mul_self_sqrt (by nlinarith [mul_self_nonneg (accel 0), mul_self_nonneg (accel 1), mul_self_nonneg (accel 2)])
      simp only [Option.some.injEq] at hq
      generalize norm3 accel = n at *
      set g : V3 ℝ := (1 / n) • accel with hg
      have hgi : ∀ i, g i = accel i / n := by intro i; simp [hg]; field_simp
      have hsum : g 0 ^ 2 + g 1 ^ 2 + g 2 ^ 2 = 1 := by
        rw [hgi, hgi, hgi]; field_simp; nlinarith
      have hb : -1 ≤ g 0 ∧ g 0 ≤ 1 := abs_le.mp ((sq_le_one_iff_abs_le_one _).mp (by nlinarith [sq_nonneg (g 1), sq_nonneg (g 2)]))
      have hsin : Real.sin (Real.arcsin (g 0)) = g 0 := Real.sin_arcsin hb.1 hb.2
      have hcos : Real.cos (Real.arcsin (g 0)) = Real.sqrt (1 - g 0 ^ 2) := Real.cos_arcsin _
      have hcos0 : 0 ≤ Real.cos (Real.arcsin (g 0)) := Real.cos_arcsin_nonneg _
      have hrest : (-g 2) ^ 2 + (-g 1) ^ 2 = 1 - g 0 ^ 2 := by nlinarith
      obtain ⟨t1, t2, t3⟩ := quatOfEuler_tilt (atan2 (-g 1) (-g 2)) (Real.arcsin (g 0))
      have hu := quatOfEuler_unit (atan2 (-g 1) (-g 2)) (Real.arcsin (g 0)) 0
      have hrow : (quatOfEuler (atan2 (-g 1) (-g 2)) (Real.arcsin (g 0)) 0).dcm 2 = fun j => -g j := by
        rw [t1]
        by_cases hz : (-g 2) ^ 2 + (-g 1) ^ 2 = 0
        · have z1 : g 1 = 0 := by nlinarith [sq_nonneg (g 1), sq_nonneg (g 2)]
          have z2 : g 2 = 0 := by nlinarith [sq_nonneg (g 1), sq_nonneg (g 2)]
          have zc : Real.cos (Real.arcsin (g 0)) = 0 := by rw [hcos, ← hrest, hz, Real.sqrt_zero]
          funext j; rw [hsin, zc]; fin_cases j <;> simp [z1, z2]
        · have hs := sin_atan2 (-g 1) (-g 2)
          have hc := cos_atan2 hz
          rw [hrest, ← hcos] at hs hc
          have hne : Real.cos (Real.arcsin (g 0)) ≠ 0 := by
            rw [hcos, ← hrest]; exact (Real.sqrt_pos.mpr (lt_of_le_of_ne (by positivity) (Ne.symm hz))).ne'
          funext j; rw [hsin, hs, hc]
          fin_cases j <;> simp <;> field_simp
      rw [hq] at hu t2 t3 hrow
      refine ⟨hu, t2, by rw [t3]; exact hcos0, ?_⟩
      have ho := Quat.dcm_mul_transpose q hu
      have hacc : accel = (-n) • (q.dcm 2) := by
        funext j; rw [hrow]; simp only [Pi.smul_apply, smul_eq_mul]; rw [hgi]; field_simp
      rw [hacc, Matrix.mulVec_smul]
      have hcol : q.dcm *ᵥ (q.dcm 2) = ![0, 0, 1] := by
        funext i
        have := congrFun (congrFun ho i) 2
        simp only [Matrix.mul_apply, Matrix.transpose_apply] at this
        rw [Matrix.mulVec, dotProduct, this, Matrix.one_apply]
        fin_cases i <;> simp
      rw [hcol]
      funext i; fin_cases i <;> simp

/-- Non-vacuity: a tilted vehicle at rest. -/
example : (initialiseTilt ![0, 6, -8] 0).isSome := by
  have h1 : norm3 ![0, 6, -8] = 10 := by
    unfold norm3
    rw [show ((![0, 6, -8] : V3 ℝ) 0 * (![0, 6, -8] : V3 ℝ) 0 + (![0, 6, -8] : V3 ℝ) 1 * (![0, 6, -8] : V3 ℝ) 1 +
      (![0, 6, -8] : V3 ℝ) 2 * (![0, 6, -8] : V3 ℝ) 2) = 10 ^ 2 by simp; norm_num]
    exact Real.sqrt_sq (by norm_num)
  rw [(initialiseTilt_spec _ _).1, h1]
  refine ⟨by norm_num, by norm_num, ?_⟩
  have := Real.pi_pos
  simp [norm3]; positivity

end Ecl.Ekf
