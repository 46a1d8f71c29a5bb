import Verif.Fusion.Airspeed
import Verif.Utils.Props

/-!
# Reset of the wind states and the reported airspeed — EKF/airspeed_fusion.cpp:165-187
-/

namespace Ecl.Fusion

open Ecl.Cov

/-- **C75 (states).** A wind reset changes the two wind states only. With an airspeed sample of less than 0.5 s age the wind is chosen such that the horizontal
velocity relative to the air has the measured magnitude and points along the horizontal projection `(R₀₀, R₁₀)` of the nose; otherwise the wind becomes zero. -/
theorem wind_reset (x : WindResetIn) (s : Vec ℝ) :
    let s' := resetWindStates x s
    let n := (attQuat s).dcm 0 0
    let e := (attQuat s).dcm 1 0
    (∀ i : Fin N, i ≠ 22 → i ≠ 23 → s' i = s i) ∧
    (x.tasReady = true → x.imuTime - x.tasTime < 500000 → n ^ 2 + e ^ 2 ≠ 0 →
      (s' 4 - s' 22) * Real.sqrt (n ^ 2 + e ^ 2) = x.tas * n ∧ (s' 5 - s' 23) * Real.sqrt (n ^ 2 + e ^ 2) = x.tas * e ∧
      (s' 4 - s' 22) ^ 2 + (s' 5 - s' 23) ^ 2 = x.tas ^ 2) ∧
    (x.tasReady = false ∨ 500000 ≤ x.imuTime - x.tasTime → s' 22 = 0 ∧ s' 23 = 0) := by
  intro s' n e
  have w22 : ∀ w : ℝ × ℝ, w = (if x.tasReady = true ∧ x.imuTime - x.tasTime < 500000 then
      (s 4 - x.tas * Real.cos (Utils.getEuler321YawQ (attQuat s)), s 5 - x.tas * Real.sin (Utils.getEuler321YawQ (attQuat s))) else (0, 0)) →
      s' 22 = w.1 ∧ s' 23 = w.2 := by
    rintro w rfl
    exact ⟨rfl, rfl⟩
  have h4 : s' 4 = s 4 := by show resetWindStates x s 4 = _; unfold resetWindStates; rw [if_neg (by decide), if_neg (by decide)]
  have h5 : s' 5 = s 5 := by show resetWindStates x s 5 = _; unfold resetWindStates; rw [if_neg (by decide), if_neg (by decide)]
  refine ⟨?_, ?_, ?_⟩
  · intro i h1 h2
    show resetWindStates x s i = _
    unfold resetWindStates
    rw [if_neg h1, if_neg h2]
  · intro h1 h2 h0
    have hy : Utils.getEuler321YawQ (attQuat s) = atan2 e n := (Utils.yaw_extractors_agree (attQuat s)).1
    have hp : 0 < Real.sqrt (n ^ 2 + e ^ 2) := Real.sqrt_pos.mpr (lt_of_le_of_ne (by positivity) (Ne.symm h0))
    have c := cos_atan2 (y := e) (x := n) h0
    have d := sin_atan2 e n
    obtain ⟨e22, e23⟩ := w22 _ rfl
    rw [if_pos ⟨h1, h2⟩, hy] at e22 e23
    simp only at e22 e23
    rw [h4, h5, e22, e23]
    refine ⟨?_, ?_, ?_⟩
    · rw [c]; field_simp; ring
    · rw [d]; field_simp; ring
    · have := Real.cos_sq_add_sin_sq (atan2 e n)
      linear_combination x.tas ^ 2 * this
  · intro h
    have hc : ¬ (x.tasReady = true ∧ x.imuTime - x.tasTime < 500000) := by
      rintro ⟨a, b⟩
      rcases h with h | h
      · rw [h] at a; exact absurd a (by decide)
      · exact absurd b (by rw [UInt64.not_lt]; exact h)
    have := w22 _ rfl
    rw [if_neg hc] at this
    exact this

/-- **C75 (reported airspeed).** The reported airspeed is the length of the velocity relative to the air. After a reset to a measured airspeed it is that airspeed
only if the vertical velocity is zero: the measurement is taken as the horizontal component, so climbing or sinking the reported airspeed is too large. -/
theorem airspeed_after_reset (x : WindResetIn) (s : Vec ℝ) (h1 : x.tasReady = true) (h2 : x.imuTime - x.tasTime < 500000)
    (h0 : (attQuat s).dcm 0 0 ^ 2 + (attQuat s).dcm 1 0 ^ 2 ≠ 0) (ht : 0 ≤ x.tas) :
    let r := getTrueAirspeed (resetWindStates x s)
    r ^ 2 = x.tas ^ 2 + s 6 ^ 2 ∧ (r = x.tas ↔ s 6 = 0) ∧ x.tas ≤ r := by
  intro r
  obtain ⟨a, b, -⟩ := wind_reset x s
  obtain ⟨-, -, hsum⟩ := b h1 h2 h0
  have h6 : resetWindStates x s 6 = s 6 := a 6 (by decide) (by decide)
  have hr : r = Real.sqrt (x.tas ^ 2 + s 6 ^ 2) := by
    show Real.sqrt (sq _ + sq _ + sq _) = _
    unfold sq
    rw [h6, ← hsum]
    congr 1; ring
  have hsq : r ^ 2 = x.tas ^ 2 + s 6 ^ 2 := by rw [hr]; exact Real.sq_sqrt (by positivity)
  have hr0 : 0 ≤ r := by rw [hr]; exact Real.sqrt_nonneg _
  refine ⟨hsq, ⟨fun h => ?_, fun h => ?_⟩, ?_⟩
  · rw [h] at hsq
    have : s 6 ^ 2 = 0 := by linarith
    exact pow_eq_zero_iff (two_ne_zero) |>.mp this
  · rw [hr, h]; simp [Real.sqrt_sq ht]
  · nlinarith [sq_nonneg (s 6)]

/-- non-vacuity: identity attitude, 10 m/s north, 2 m/s down, airspeed 15 m/s -/
example : let s : Vec ℝ := fun i => if i = 0 then 1 else if i = 4 then 10 else if i = 6 then 2 else 0
    let x : WindResetIn := ⟨true, 1000000, 900000, 15, 1, 1, 1⟩
    getTrueAirspeed (resetWindStates x s) ^ 2 = 15 ^ 2 + 2 ^ 2 := by
  intro s x
  have h0 : (attQuat s).dcm 0 0 ^ 2 + (attQuat s).dcm 1 0 ^ 2 ≠ 0 := by
    have q : attQuat s = ⟨1, 0, 0, 0⟩ := rfl
    rw [q]; simp [Quat.dcm]
  exact (airspeed_after_reset x s rfl (by decide) h0 (show (0 : ℝ) ≤ 15 by norm_num)).1

end Ecl.Fusion
