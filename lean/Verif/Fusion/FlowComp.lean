import Verif.Fusion.Flow

/-!
# Optical flow body rate compensation (C84) — EKF/optflow_fusion.cpp:333-371
-/

namespace Ecl.Fusion

noncomputable section

/-- state of `calcOptFlowBodyRateComp` -/
structure FlowComp where
  /-- `_imu_del_ang_of`, `_delta_time_of` -/
  delAng : V3 ℝ
  deltaTime : ℝ
  /-- `_flow_gyro_bias` -/
  bias : V3 ℝ

/-- the flow sample: `gyro_xyz` (`none` if any component is not finite) and `dt` -/
structure FlowGyro where
  gyro : Option (V3 ℝ)
  dt : ℝ

/-- `FLT_EPSILON` -/
def fltEps : ℝ := 1 / 8388608

/-- `calcOptFlowBodyRateComp`, EKF/optflow_fusion.cpp:333-371: new state, gyro data of the sample, return value -/
def flowBodyRateComp (g : FlowGyro) (c : FlowComp) : FlowComp × Option (V3 ℝ) × Bool :=
  if c.deltaTime > 1 then ({ c with delAng := fun _ => 0, deltaTime := 0 }, g.gyro, false)
  else
    match g.gyro with
    | some w =>
      let c :=
        if c.deltaTime > fltEps ∧ g.dt > fltEps ∧ |c.deltaTime - g.dt| < 1 / 10 then
          let ref : V3 ℝ := fun i => c.delAng i * (1 / c.deltaTime)
          let meas : V3 ℝ := fun i => w i * (1 / g.dt)
          { c with bias := fun i => c.bias i * (99 / 100) + constrain (meas i - ref i) (-(1 / 10)) (1 / 10) * (1 / 100) }
        else c
      ({ c with delAng := fun _ => 0, deltaTime := 0 }, some w, true)
    | none => ({ delAng := fun _ => 0, deltaTime := 0, bias := fun _ => 0 }, some (fun i => -c.delAng i), true)

end

/-- **C84.** The accumulators are always emptied.  More than 1 s of accumulation: failure, bias kept.  No usable sensor gyro: the
negated accumulated filter rotation takes its place and the bias is zero.  Otherwise the bias moves 1 % of the way to the
difference of the measured and reference rate, limited to ±0.1 rad/s, if both intervals are positive and differ by less than
0.1 s. -/
theorem flow_rate_comp (g : FlowGyro) (c : FlowComp) :
    let r := flowBodyRateComp g c
    (r.1.delAng = 0 ∧ r.1.deltaTime = 0) ∧
    (r.2.2 = true ↔ c.deltaTime ≤ 1) ∧
    (1 < c.deltaTime → r.1.bias = c.bias ∧ r.2.1 = g.gyro) ∧
    (c.deltaTime ≤ 1 → g.gyro = none → r.1.bias = 0 ∧ r.2.1 = some (-c.delAng)) ∧
    (∀ w, c.deltaTime ≤ 1 → g.gyro = some w → r.2.1 = some w ∧ ∀ i, r.1.bias i =
      if fltEps < c.deltaTime ∧ fltEps < g.dt ∧ |c.deltaTime - g.dt| < 1 / 10 then
        c.bias i + (max (-(1 / 10)) (min (w i / g.dt - c.delAng i / c.deltaTime) (1 / 10)) - c.bias i) / 100
      else c.bias i) := by
  intro r
  by_cases h : c.deltaTime > 1
  · have hr : r = _ := if_pos h
    rw [hr]
    refine ⟨⟨rfl, rfl⟩, ⟨fun h' => by simp at h', fun h' => absurd h' (not_le.mpr h)⟩, fun _ => ⟨rfl, rfl⟩,
      fun h' => absurd h' (not_le.mpr h), fun _ h' => absurd h' (not_le.mpr h)⟩
  · have hle := not_lt.mp h
    have hr : r = _ := if_neg h
    cases hg : g.gyro with
    | none =>
      rw [hg] at hr
      rw [hr]
      exact ⟨⟨rfl, rfl⟩, ⟨fun _ => hle, fun _ => rfl⟩, fun h' => absurd h' h, fun _ _ => ⟨rfl, rfl⟩, fun w _ hw => by simp at hw⟩
    | some w =>
      rw [hg] at hr
      rw [hr]
      refine ⟨⟨rfl, rfl⟩, ⟨fun _ => hle, fun _ => rfl⟩, fun h' => absurd h' h, fun _ hw => by simp at hw, ?_⟩
      intro w' _ hw
      simp only [Option.some.injEq] at hw
      subst hw
      refine ⟨rfl, fun i => ?_⟩
      simp only
      by_cases hc : c.deltaTime > fltEps ∧ g.dt > fltEps ∧ |c.deltaTime - g.dt| < 1 / 10
      · rw [if_pos hc, if_pos hc]
        simp only
        rw [constrain_eq (by norm_num), mul_one_div, mul_one_div]
        ring
      · rw [if_neg hc, if_neg hc]

/-- **C84 (history).** Over any sequence of samples, with any rotations and time accumulated between them, every axis of the flow
gyro bias stays within ±0.1 rad/s. -/
theorem flow_bias_bounded (c : FlowComp) (h0 : ∀ i, |c.bias i| ≤ 1 / 10) (l : List (FlowGyro × V3 ℝ × ℝ)) (i : Fin 3) :
    |(l.foldl (fun c p => (flowBodyRateComp p.1 { c with delAng := p.2.1, deltaTime := p.2.2 }).1) c).bias i| ≤ 1 / 10 := by
  induction l generalizing c with
  | nil => exact h0 i
  | cons p l ih =>
    rw [List.foldl_cons]
    apply ih
    intro j
    obtain ⟨-, -, h1, h2, h3⟩ := flow_rate_comp p.1 { c with delAng := p.2.1, deltaTime := p.2.2 }
    rcases lt_or_ge 1 p.2.2 with ht | ht
    · rw [(h1 ht).1]; exact h0 j
    · cases hg : p.1.gyro with
      | none => rw [(h2 ht hg).1]; simp
      | some w =>
        rw [(h3 w ht hg).2 j]
        split
        · have b := abs_le.mp (h0 j)
          simp only
          generalize w j / p.1.dt - p.2.1 j / p.2.2 = z
          have c1 : -(1 / 10) ≤ max (-(1 / 10)) (min z (1 / 10)) := le_max_left _ _
          have c2 : max (-(1 / 10)) (min z (1 / 10)) ≤ 1 / 10 := max_le (by norm_num) (min_le_right _ _)
          rw [abs_le]; constructor <;> linarith [b.1, b.2]
        · exact h0 j

/-- a filter started with zero bias; a sample with a rate offset of 1 rad/s moves the bias by 0.001 -/
example : (flowBodyRateComp ⟨some fun _ => 1 / 20, 1 / 20⟩ ⟨fun _ => 0, 1 / 20, fun _ => 0⟩).1.bias 0 = 1 / 1000 := by
  obtain ⟨-, -, -, -, h⟩ := flow_rate_comp ⟨some fun _ => 1 / 20, 1 / 20⟩ ⟨fun _ => 0, 1 / 20, fun _ => 0⟩
  rw [(h _ (by norm_num) rfl).2 0]
  have : fltEps < 1 / 20 := by unfold fltEps; norm_num
  rw [if_pos ⟨this, this, by norm_num⟩]
  norm_num

end Ecl.Fusion
